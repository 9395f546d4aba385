import Verif.Encoding.Abi
import Verif.Encoding.AbiSpec

/-!
# Decoding an encoding: helper lemmas
-/

namespace Amp.Encoding.Abi

/-- total head length -/
def hl (ms : List Mediate) : Nat := (ms.map Mediate.headLen).sum

/-- total tail length -/
def tl (ms : List Mediate) : Nat := (ms.map Mediate.tailLen).sum

theorem word_length (n : Nat) : (word n).length = 32 := be_length 32 n

theorem heads_length (off : Nat) (ms : List Mediate) : (heads off ms).length = hl ms := by
  induction ms generalizing off with
  | nil => rfl
  | cons m t ih =>
    cases m <;> simp [heads, hl, Mediate.headLen, ih, word_length] <;> rfl

theorem tails_length (ms : List Mediate) : (tails ms).length = tl ms := by
  induction ms with
  | nil => rfl
  | cons m t ih => cases m <;> simp [tails, tl, Mediate.tailLen, ih] <;> rfl

theorem heads_append (off : Nat) (ms ns : List Mediate) :
    heads off (ms ++ ns) = heads off ms ++ heads (off + tl ms) ns := by
  induction ms generalizing off with
  | nil => simp [heads, tl]
  | cons m t ih =>
    cases m with
    | raw b => simp [heads, ih, tl, Mediate.tailLen]
    | dyn b => simp [heads, ih, tl, Mediate.tailLen, Nat.add_assoc]

theorem tails_append (ms ns : List Mediate) : tails (ms ++ ns) = tails ms ++ tails ns := by
  induction ms with
  | nil => rfl
  | cons m t ih => cases m <;> simp [tails, ih]

theorem hl_append (ms ns : List Mediate) : hl (ms ++ ns) = hl ms + hl ns := by simp [hl]

theorem at_raw {b : Bytes} {base : Nat} {pre post : List Mediate} {x : Bytes}
    (h : At b base (headTail (pre ++ .raw x :: post))) : At b (base + hl pre) x := by
  unfold headTail at h
  rw [heads_append] at h
  simp only [heads, List.append_assoc] at h
  have := h.right
  rw [heads_length] at this
  exact this.left

theorem at_dyn {b : Bytes} {base : Nat} {pre post : List Mediate} {x : Bytes}
    (h : At b base (headTail (pre ++ .dyn x :: post))) :
    At b (base + hl pre) (word (hl (pre ++ .dyn x :: post) + tl pre)) ∧
    At b (base + (hl (pre ++ .dyn x :: post) + tl pre)) x := by
  have h1 := h
  unfold headTail at h h1
  refine ⟨?_, ?_⟩
  · rw [heads_append] at h
    simp only [heads, List.append_assoc] at h
    have := h.right
    rw [heads_length] at this
    exact this.left
  · have h2 := h1.right
    rw [heads_length, tails_append] at h2
    have h3 := h2.right
    rw [tails_length] at h3
    simp only [tails] at h3
    have h4 := h3.left
    rw [Nat.add_assoc] at h4
    exact h4

theorem uintAt_of_at {b : Bytes} {pos n : Nat} (h : At b pos (word n)) (hn : n < 256 ^ 32) :
    uintAt b pos = some n := by
  unfold uintAt
  have := h.slice
  rw [word_length] at this
  rw [this]
  simp only [word, ofBE_be hn]

theorem dyn_read {b : Bytes} {base : Nat} {pre post : List Mediate} {x : Bytes}
    (h : At b base (headTail (pre ++ .dyn x :: post))) (hb : b.length < 256 ^ 32) :
    ∃ q, At b q x ∧ ∀ {α : Type} (read : Nat → Option α), dynAt read b base (base + hl pre) = read q := by
  obtain ⟨h1, h2⟩ := at_dyn h
  refine ⟨_, h2, ?_⟩
  intro α read
  unfold dynAt
  rw [uintAt_of_at h1]
  have := h2.le
  omega

theorem bytesAt_of_at {b : Bytes} {q : Nat} {x : Bytes} (h : At b q (word x.length ++ pad32 x))
    (hb : b.length < 256 ^ 32) : bytesAt b q = some x := by
  unfold bytesAt
  have hle := h.le
  have hx : x.length < 256 ^ 32 := by
    simp only [List.length_append, pad32] at hle
    omega
  rw [uintAt_of_at h.left hx]
  simp only
  have := h.right
  rw [word_length] at this
  exact this.left.slice

theorem addressAt_of_at {b : Bytes} {q : Nat} {x : Bytes}
    (h : At b q (List.replicate 12 0 ++ x)) (hx : x.length = 20) : addressAt b q = some x := by
  unfold addressAt
  have h1 := h.left.slice
  simp only [List.length_replicate] at h1
  rw [h1]
  simp only [if_true]
  have h2 := h.right.slice
  simp only [List.length_replicate, hx] at h2
  exact h2

theorem hl_all32 {ms : List Mediate} (h : ∀ m ∈ ms, m.headLen = 32) : hl ms = 32 * ms.length := by
  induction ms with
  | nil => rfl
  | cons m t ih =>
    have h1 := h m (by simp)
    have h2 := ih (fun x hx => h x (by simp [hx]))
    unfold hl at *
    simp only [List.map_cons, List.sum_cons, List.length_cons, h1, h2]
    omega

theorem split_at {α : Type} {l : List α} {i : Nat} {x : α} (h : l[i]? = some x) :
    l = l.take i ++ x :: l.drop (i + 1) ∧ (l.take i).length = i := by
  obtain ⟨hi, hx⟩ := List.getElem?_eq_some_iff.mp h
  refine ⟨?_, by simp; omega⟩
  rw [← hx]
  simp

/-- arrays whose elements all have one head word -/
theorem array_read {α : Type} {b : Bytes} {q : Nat} {xs : List α} {enc : α → Elem}
    {read : Nat → Nat → Option α}
    (h : At b q (word (xs.map enc).length ++ headTail ((xs.map enc).map Elem.mediate)))
    (hb : b.length < 256 ^ 32) (h32 : ∀ x ∈ xs, (enc x).mediate.headLen = 32)
    (hr : ∀ (pre post : List Mediate) (x : α), x ∈ xs →
      At b (q + 32) (headTail (pre ++ (enc x).mediate :: post)) →
      read (q + 32) (q + 32 + hl pre) = some x) :
    arrayAt read b q = some xs := by
  unfold arrayAt
  have hall : ∀ m ∈ (xs.map enc).map Elem.mediate, m.headLen = 32 := by
    intro m hm
    simp only [List.map_map, List.mem_map, Function.comp] at hm
    obtain ⟨x, hx, rfl⟩ := hm
    exact h32 x hx
  have hle := h.le
  have hlen : (headTail ((xs.map enc).map Elem.mediate)).length ≥ xs.length := by
    unfold headTail
    rw [List.length_append, heads_length, hl_all32 hall]
    simp only [List.length_map]
    omega
  have hn : xs.length < 256 ^ 32 := by
    simp only [List.length_append] at hle
    omega
  simp only [List.length_map] at h
  rw [uintAt_of_at h.left hn]
  simp only
  have h2 := h.right
  rw [word_length] at h2
  apply readFrom_ok
  intro i x hi
  rw [Nat.zero_add]
  have hi' : ((xs.map enc).map Elem.mediate)[i]? = some (enc x).mediate := by simp [hi]
  obtain ⟨hs, hl'⟩ := split_at hi'
  rw [hs] at h2
  have := hr _ _ x (List.mem_of_getElem? hi) h2
  rwa [hl_all32, hl'] at this
  intro m hm
  exact hall m (List.mem_of_mem_take hm)

theorem bytesArray_of_at {b : Bytes} {q : Nat} {xs : List Bytes}
    (h : At b q (word (xs.map Elem.bytes).length ++ headTail ((xs.map Elem.bytes).map Elem.mediate)))
    (hb : b.length < 256 ^ 32) : bytesArrayAt b q = some xs := by
  apply array_read h hb
  · intro x _; rfl
  · intro pre post x _ hat
    simp only [Elem.mediate] at hat
    obtain ⟨p, h1, h2⟩ := dyn_read hat hb
    rw [h2]
    exact bytesAt_of_at h1 hb

theorem pad32_of_32 {x : Bytes} (h : x.length = 32) : pad32 x = x := by
  unfold pad32; simp [h]

theorem bytes32Array_of_at {b : Bytes} {q : Nat} {xs : List Bytes}
    (h : At b q (word (xs.map Elem.fixedBytes).length ++
      headTail ((xs.map Elem.fixedBytes).map Elem.mediate)))
    (hb : b.length < 256 ^ 32) (h32 : ∀ x ∈ xs, x.length = 32) : bytes32ArrayAt b q = some xs := by
  apply array_read h hb
  · intro x hx; simp only [Elem.mediate, Mediate.headLen, pad32_of_32 (h32 x hx), h32 x hx]
  · intro pre post x hx hat
    simp only [Elem.mediate] at hat
    have := (at_raw hat).slice
    rwa [pad32_of_32 (h32 x hx), h32 x hx] at this

theorem uintArray_of_at {b : Bytes} {q : Nat} {xs : List Nat}
    (h : At b q (word (xs.map Elem.uint).length ++ headTail ((xs.map Elem.uint).map Elem.mediate)))
    (hb : b.length < 256 ^ 32) (hx : ∀ x ∈ xs, x < 256 ^ 32) : uintArrayAt b q = some xs := by
  apply array_read h hb
  · intro x hx; exact word_length x
  · intro pre post x hx' hat
    simp only [Elem.mediate] at hat
    exact uintAt_of_at (at_raw hat) (hx x hx')

theorem addressArray_of_at {b : Bytes} {q : Nat} {xs : List Bytes}
    (h : At b q (word (xs.map Elem.address).length ++ headTail ((xs.map Elem.address).map Elem.mediate)))
    (hb : b.length < 256 ^ 32) (hx : ∀ x ∈ xs, x.length = 20) : addressArrayAt b q = some xs := by
  apply array_read h hb
  · intro x hx'; simp [Elem.mediate, Mediate.headLen, hx x hx']
  · intro pre post x hx' hat
    simp only [Elem.mediate] at hat
    exact addressAt_of_at (at_raw hat) (hx x hx')

/-- what a successful `ethabi::encode` returns -/
theorem ethabi_ok {ts : List Token} {b : Bytes} :
    ethabiEncode ts = .ok b ↔ headTail (ts.map Token.mediate) = b ∧ b.length < 2 ^ 32 := by
  unfold ethabiEncode
  split
  · simp only [Except.ok.injEq]
    constructor
    · rintro rfl; exact ⟨rfl, by assumption⟩
    · exact fun h => h.1
  · simp only [reduceCtorEq, false_iff, not_and]
    rintro rfl
    assumption

theorem small {b : Bytes} (h : b.length < 2 ^ 32) : b.length < 256 ^ 32 :=
  lt_of_lt_of_le h (by decide)

theorem zipCommands_ok (cs : List Command) :
    zipCommands (cs.map (·.id)) (cs.map (·.ty)) (cs.map (·.params)) = some cs := by
  induction cs with
  | nil => rfl
  | cons c t ih => simp [zipCommands, ih]

theorem commandType_show (t : CommandType) : commandType? (utf8Bytes t.show) = some t := by
  cases t <;> decide

end Amp.Encoding.Abi
