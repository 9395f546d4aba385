import Verif.Base.Prelude

/-!
# String operations of the Rust standard library used by the contracts
-/

namespace Amp

/-- Rust `str::split(c)` (collected): always at least one component. -/
def splitOn (c : Char) : Str → List Str
  | [] => [[]]
  | x :: t =>
    if x = c then [] :: splitOn c t
    else
      match splitOn c t with
      | [] => [[x]]
      | h :: r => (x :: h) :: r

/-- Rust `str::split_once(c)`: split at the first occurrence. -/
def splitOnce (c : Char) : Str → Option (Str × Str)
  | [] => none
  | x :: t =>
    if x = c then some ([], t)
    else (splitOnce c t).map (fun p => (x :: p.1, p.2))

/-- Decimal rendering (`u64::to_string`). -/
def showNat (n : Nat) : Str := Nat.toDigits 10 n

/-- Digits only, at least one. -/
def isDigits (s : Str) : Bool := s ≠ [] && s.all Char.isDigit

/-- Rust `str::parse::<u64>()`: an optional `+`, then at least one decimal digit and nothing else, and
the value must fit. -/
def parseU64 (s : Str) : Option Nat :=
  let ds := match s with
    | '+' :: t => t
    | t => t
  if isDigits ds then
    let n := Nat.ofDigitChars 10 ds 0
    if n ≤ u64Max then some n else none
  else none

/-- inverse of `splitOn`: components joined with the separator (Rust `join`). -/
def joinWith (c : Char) : List Str → Str
  | [] => []
  | [s] => s
  | s :: t => s ++ c :: joinWith c t

theorem splitOn_ne_nil (c : Char) (s : Str) : splitOn c s ≠ [] := by
  cases s with
  | nil => simp [splitOn]
  | cons x t =>
    unfold splitOn
    split
    · simp
    · split <;> simp

theorem splitOn_of_notMem {c : Char} {s : Str} (h : c ∉ s) : splitOn c s = [s] := by
  induction s with
  | nil => rfl
  | cons x t ih =>
    simp only [List.mem_cons, not_or] at h
    unfold splitOn
    rw [if_neg (Ne.symm h.1), ih h.2]

theorem splitOn_append {c : Char} {a : Str} (h : c ∉ a) (b : Str) :
    splitOn c (a ++ c :: b) = a :: splitOn c b := by
  induction a with
  | nil => simp [splitOn]
  | cons x t ih =>
    simp only [List.mem_cons, not_or] at h
    rw [List.cons_append]
    conv_lhs => unfold splitOn
    rw [if_neg (Ne.symm h.1), ih h.2]

theorem joinWith_splitOn (c : Char) (s : Str) : joinWith c (splitOn c s) = s := by
  induction s with
  | nil => rfl
  | cons x t ih =>
    unfold splitOn
    split
    · rename_i hx
      cases hs : splitOn c t with
      | nil => exact absurd hs (splitOn_ne_nil c t)
      | cons h r => rw [hs] at ih; simp only [joinWith]; rw [ih, hx]; rfl
    · cases hs : splitOn c t with
      | nil => exact absurd hs (splitOn_ne_nil c t)
      | cons h r =>
        rw [hs] at ih
        cases r with
        | nil => simp only [joinWith] at *; rw [ih]
        | cons h' r' => simp only [joinWith] at *; rw [List.cons_append, ih]

theorem splitOn_inj {c : Char} {s t : Str} (h : splitOn c s = splitOn c t) : s = t := by
  rw [← joinWith_splitOn c s, h, joinWith_splitOn]

theorem splitOn_notMem (c : Char) (s : Str) : ∀ x ∈ splitOn c s, c ∉ x := by
  induction s with
  | nil => simp [splitOn]
  | cons y t ih =>
    unfold splitOn
    split
    · intro x hx
      simp only [List.mem_cons] at hx
      rcases hx with rfl | hx
      · simp
      · exact ih x hx
    · rename_i hy
      cases hs : splitOn c t with
      | nil => exact absurd hs (splitOn_ne_nil c t)
      | cons h r =>
        rw [hs] at ih
        intro x hx
        simp only [List.mem_cons] at hx
        rcases hx with rfl | hx
        · simp only [List.mem_cons, not_or]
          exact ⟨Ne.symm hy, ih h (by simp)⟩
        · exact ih x (by simp [hx])

/-- a string splits in exactly two at `c` iff it is two separator-free strings around one separator -/
theorem splitOn_eq_two {c : Char} {s a b : Str} :
    splitOn c s = [a, b] ↔ s = a ++ c :: b ∧ c ∉ a ∧ c ∉ b := by
  constructor
  · intro h
    have h1 := joinWith_splitOn c s
    have h2 := splitOn_notMem c s
    rw [h] at h1 h2
    exact ⟨h1.symm, h2 a (by simp), h2 b (by simp)⟩
  · rintro ⟨rfl, h1, h2⟩
    rw [splitOn_append h1, splitOn_of_notMem h2]

theorem splitOnce_append {c : Char} {a : Str} (h : c ∉ a) (b : Str) :
    splitOnce c (a ++ c :: b) = some (a, b) := by
  induction a with
  | nil => simp [splitOnce]
  | cons x t ih =>
    simp only [List.mem_cons, not_or] at h
    rw [List.cons_append]
    unfold splitOnce
    rw [if_neg (Ne.symm h.1), ih h.2]
    rfl

theorem splitOnce_eq_some {c : Char} {s a b : Str} :
    splitOnce c s = some (a, b) ↔ s = a ++ c :: b ∧ c ∉ a := by
  constructor
  · intro h
    induction s generalizing a with
    | nil => simp [splitOnce] at h
    | cons x t ih =>
      unfold splitOnce at h
      split at h
      · simp only [Option.some.injEq, Prod.mk.injEq] at h
        obtain ⟨rfl, rfl⟩ := h
        simp_all
      · rename_i hx
        rw [Option.map_eq_some_iff] at h
        obtain ⟨⟨a', b'⟩, h1, h2⟩ := h
        simp only [Prod.mk.injEq] at h2
        obtain ⟨rfl, rfl⟩ := h2
        obtain ⟨h3, h4⟩ := ih h1
        rw [h3]
        simp [h4, Ne.symm hx]
  · rintro ⟨rfl, h⟩
    exact splitOnce_append h b

theorem showNat_ne_nil (n : Nat) : showNat n ≠ [] := Nat.toDigits_ne_nil

theorem showNat_isDigit {n : Nat} {c : Char} (h : c ∈ showNat n) : c.isDigit = true :=
  Nat.isDigit_of_mem_toDigits (by omega) (by omega) h

theorem isDigits_showNat (n : Nat) : isDigits (showNat n) = true := by
  unfold isDigits
  rw [Bool.and_eq_true]
  exact ⟨by simpa using showNat_ne_nil n, List.all_eq_true.mpr (fun c h => showNat_isDigit h)⟩

theorem showNat_inj {m n : Nat} (h : showNat m = showNat n) : m = n := by
  rw [← @Nat.ofDigitChars_ten_toDigits m, ← @Nat.ofDigitChars_ten_toDigits n]
  unfold showNat at h
  rw [h]

theorem notMem_showNat {c : Char} (hc : c.isDigit = false) (n : Nat) : c ∉ showNat n := by
  intro h
  rw [showNat_isDigit h] at hc
  simp at hc

theorem parseU64_showNat {n : Nat} (h : n ≤ u64Max) : parseU64 (showNat n) = some n := by
  unfold parseU64
  have hp : (match showNat n with | '+' :: t => t | t => t) = showNat n := by
    split
    · rename_i t ht
      exact absurd (show '+' ∈ showNat n by rw [ht]; simp) (notMem_showNat (by decide) n)
    · rfl
  simp only [hp]
  rw [if_pos (isDigits_showNat n)]
  have : Nat.ofDigitChars 10 (showNat n) 0 = n := Nat.ofDigitChars_ten_toDigits
  rw [this, if_pos h]

theorem parseU64_le {s : Str} {n : Nat} (h : parseU64 s = some n) : n ≤ u64Max := by
  unfold parseU64 at h
  dsimp only at h
  generalize (match s with | '+' :: t => t | t => t) = ds at h
  by_cases h1 : isDigits ds = true
  · rw [if_pos h1] at h
    by_cases h2 : Nat.ofDigitChars 10 ds 0 ≤ u64Max
    · rw [if_pos h2] at h
      simp only [Option.some.injEq] at h
      omega
    · rw [if_neg h2] at h; simp at h
  · rw [if_neg h1] at h; simp at h

end Amp
