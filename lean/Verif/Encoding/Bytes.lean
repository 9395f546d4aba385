import Verif.Base.Hex
import Mathlib.Tactic.Ring

/-!
# Byte strings: big and little endian numbers, UTF-8

Shared by the ABI and BCS encodings.
-/

namespace Amp.Encoding

/-- byte strings -/
abbrev Bytes := List Nat

/-- the `k` low bytes of `n`, most significant first -/
def be : Nat → Nat → Bytes
  | 0, _ => []
  | k + 1, n => be k (n / 256) ++ [n % 256]

/-- the number a big endian byte string stands for -/
def ofBE (b : Bytes) : Nat := b.foldl (fun a x => 256 * a + x) 0

/-- the `k` low bytes of `n`, least significant first -/
def le : Nat → Nat → Bytes
  | 0, _ => []
  | k + 1, n => n % 256 :: le k (n / 256)

/-- the number a little endian byte string stands for -/
def ofLE : Bytes → Nat
  | [] => 0
  | x :: t => x + 256 * ofLE t

theorem be_length (k n : Nat) : (be k n).length = k := by
  induction k generalizing n with
  | zero => rfl
  | succ k ih => simp [be, ih]

theorem le_length (k n : Nat) : (le k n).length = k := by
  induction k generalizing n with
  | zero => rfl
  | succ k ih => simp [le, ih]

theorem ofBE_be {k n : Nat} (h : n < 256 ^ k) : ofBE (be k n) = n := by
  induction k generalizing n with
  | zero => simp at h; subst h; rfl
  | succ k ih =>
    have h' : n / 256 < 256 ^ k := by
      rw [Nat.div_lt_iff_lt_mul (by omega)]; rwa [pow_succ] at h
    have := ih h'
    unfold ofBE at *
    rw [be, List.foldl_append, this]
    simp only [List.foldl_cons, List.foldl_nil]
    omega

theorem ofLE_le {k n : Nat} (h : n < 256 ^ k) : ofLE (le k n) = n := by
  induction k generalizing n with
  | zero => simp at h; subst h; rfl
  | succ k ih =>
    have h' : n / 256 < 256 ^ k := by
      rw [Nat.div_lt_iff_lt_mul (by omega)]; rwa [pow_succ] at h
    rw [le, ofLE, ih h']
    omega

theorem be_isBytes (k n : Nat) : IsBytes (be k n) := by
  induction k generalizing n with
  | zero => intro x h; simp [be] at h
  | succ k ih =>
    intro x h
    rcases List.mem_append.mp h with h | h
    · exact ih _ x h
    · simp only [List.mem_singleton] at h; omega

/-- UTF-8 is injective -/
theorem utf8Bytes_inj {s t : Str} (h : utf8Bytes s = utf8Bytes t) : s = t := by
  have h1 : s.flatMap String.utf8EncodeChar = t.flatMap String.utf8EncodeChar := by
    unfold utf8Bytes at h
    rw [← List.map_flatMap, ← List.map_flatMap] at h
    exact (List.map_inj_right (fun a b hab => UInt8.toNat_inj.mp hab)).mp h
  have h2 : (String.ofList s).toByteArray = (String.ofList t).toByteArray := by
    rw [String.toByteArray_ofList, String.toByteArray_ofList]
    unfold List.utf8Encode
    rw [h1]
  have h3 := String.toByteArray_inj.mp h2
  have := congrArg String.toList h3
  simpa using this

/-- `x` stands at position `pos` of `b` -/
def At (b : Bytes) (pos : Nat) (x : Bytes) : Prop := ∃ p s, b = p ++ (x ++ s) ∧ p.length = pos

theorem At.zero (x s : Bytes) : At (x ++ s) 0 x := ⟨[], s, rfl, rfl⟩

theorem At.self (x : Bytes) : At x 0 x := ⟨[], [], by simp, rfl⟩

theorem At.left {b : Bytes} {pos : Nat} {x y : Bytes} (h : At b pos (x ++ y)) : At b pos x := by
  obtain ⟨p, s, h1, h2⟩ := h
  exact ⟨p, y ++ s, by rw [h1]; simp, h2⟩

theorem At.right {b : Bytes} {pos : Nat} {x y : Bytes} (h : At b pos (x ++ y)) :
    At b (pos + x.length) y := by
  obtain ⟨p, s, h1, h2⟩ := h
  exact ⟨p ++ x, s, by rw [h1]; simp, by simp [h2]⟩

theorem At.le {b : Bytes} {pos : Nat} {x : Bytes} (h : At b pos x) : pos + x.length ≤ b.length := by
  obtain ⟨p, s, h1, h2⟩ := h
  rw [h1]; simp only [List.length_append]; omega

/-- read `n` bytes at a position -/
def sliceAt (b : Bytes) (pos n : Nat) : Option Bytes :=
  if pos + n ≤ b.length then some ((b.drop pos).take n) else none

theorem At.slice {b : Bytes} {pos : Nat} {x : Bytes} (h : At b pos x) :
    sliceAt b pos x.length = some x := by
  obtain ⟨p, s, h1, h2⟩ := h
  unfold sliceAt
  rw [if_pos]
  · subst h2
    rw [h1, List.drop_left, List.take_left]
  · rw [h1]; simp only [List.length_append]; omega

/-- read `n` items, the `i`-th with `f i`, starting with number `k` -/
def readFrom {α : Type} (f : Nat → Option α) (k : Nat) : Nat → Option (List α)
  | 0 => some []
  | n + 1 =>
    match f k with
    | none => none
    | some x =>
      match readFrom f (k + 1) n with
      | none => none
      | some t => some (x :: t)

theorem readFrom_ok {α : Type} {f : Nat → Option α} {xs : List α} {k : Nat}
    (h : ∀ (i : Nat) (x : α), xs[i]? = some x → f (k + i) = some x) :
    readFrom f k xs.length = some xs := by
  induction xs generalizing k with
  | nil => rfl
  | cons x t ih =>
    have h0 : f k = some x := h 0 x rfl
    have ht : readFrom f (k + 1) t.length = some t := by
      apply ih
      intro i y hy
      have := h (i + 1) y (by simpa using hy)
      rw [← this]; congr 1; omega
    simp only [List.length_cons, readFrom, h0, ht]

/-- collect a list of options -/
def allSome {α : Type} : List (Option α) → Option (List α)
  | [] => some []
  | none :: _ => none
  | some a :: t =>
    match allSome t with
    | none => none
    | some l => some (a :: l)

theorem allSome_map_some {α : Type} (l : List α) : allSome (l.map some) = some l := by
  induction l with
  | nil => rfl
  | cons a t ih => simp [allSome, ih]

theorem allSome_map {α β : Type} {f : α → Option β} {g : α → β} {l : List α}
    (h : ∀ a ∈ l, f a = some (g a)) : allSome (l.map f) = some (l.map g) := by
  induction l with
  | nil => rfl
  | cons a t ih =>
    simp [allSome, h a (by simp), ih (fun b hb => h b (by simp [hb]))]

end Amp.Encoding
