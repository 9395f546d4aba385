import Verif.Base.Strings

/-!
# Messages, chain names and cross-chain ids (`contracts/connection-router/src/state.rs`)
-/

namespace Amp.Router

/-- `state.rs:26` (`ID_SEPARATOR`) -/
def idSep : Char := ':'

/-- `str::to_lowercase`, as a parameter: a function with the three properties of Unicode lower-casing
that the code relies on.  `asciiLower` below is one. -/
structure Lowering where
  f : Str → Str
  idem : ∀ s, f (f s) = f s
  noSep : ∀ s, idSep ∉ s → idSep ∉ f s
  nonempty : ∀ s, s ≠ [] → f s ≠ []

theorem toLower_idem (c : Char) : c.toLower.toLower = c.toLower := by
  unfold Char.toLower
  by_cases hu : c.val ≥ 'A'.val ∧ c.val ≤ 'Z'.val
  · rw [dif_pos hu, dif_neg]
    obtain ⟨h3, h4⟩ := hu
    simp only [ge_iff_le, UInt32.le_iff_toNat_le] at h3 h4 ⊢
    simp only [UInt32.toNat_add]
    simp at h3 h4 ⊢
    omega
  · rw [dif_neg hu, dif_neg hu]

/-- lower-casing of ASCII letters -/
def asciiLower : Lowering where
  f := List.map Char.toLower
  idem := by intro s; simp [toLower_idem]
  noSep := by
    intro s h hc
    obtain ⟨c, h1, h2⟩ := List.mem_map.mp hc
    have : c = idSep := by
      unfold idSep at h2 ⊢
      unfold Char.toLower at h2
      split at h2
      · rename_i hu
        exfalso
        have hv := congrArg (fun c : Char => c.val.toNat) h2
        simp only [ge_iff_le] at hu
        obtain ⟨h3, h4⟩ := hu
        simp only [UInt32.le_iff_toNat_le] at h3 h4
        simp only [UInt32.toNat_add] at hv
        simp at hv h3 h4
        omega
      · exact h2
    exact h (this ▸ h1)
  nonempty := by intro s h; simpa using h

/-- A chain name: the string inside `ChainName` (`state.rs:279-282`). -/
abbrev ChainName := Str

/-- A chain name that can exist: built by `FromStr`, so non-empty, separator-free, lower case. -/
def ChainName.Valid (L : Lowering) (c : ChainName) : Prop := c ≠ [] ∧ idSep ∉ c ∧ L.f c = c

/-- `state.rs:284-294` (`FromStr for ChainName`) -/
def ChainName.parse (L : Lowering) (s : Str) : Option ChainName :=
  if idSep ∈ s ∨ s = [] then none else some (L.f s)

/-- `state.rs:217-222` (`CrossChainId`); `id` is a `nonempty::String`. -/
structure CCId where
  chain : ChainName
  id : Str
  deriving DecidableEq, Repr

/-- `state.rs:246-250` (`Display for CrossChainId`) -/
def CCId.show (c : CCId) : Str := c.chain ++ idSep :: c.id

/-- `state.rs:225-244` (`FromStr for CrossChainId`): split at the first separator; the second part
must be non-empty. -/
def CCId.parse (L : Lowering) (s : Str) : Option CCId :=
  match splitOnce idSep s with
  | none => none
  | some (c, i) =>
    match ChainName.parse L c with
    | none => none
    | some ch => if i = [] then none else some ⟨ch, i⟩

/-- `state.rs:160-171` (`Message`).  Addresses are non-empty strings, the payload hash is 32 bytes. -/
structure Message where
  ccId : CCId
  sourceAddress : Str
  destinationChain : ChainName
  destinationAddress : Str
  payloadHash : List Nat
  deriving DecidableEq, Repr

/-- `state.rs:173-184` (`Message::hash`), the text and the 32 bytes fed to Keccak.  Since the bytes come
last and have fixed length, the pair determines and is determined by the hashed byte string. -/
def Message.hashInput (m : Message) : Str × List Nat :=
  (m.ccId.show ++ m.sourceAddress ++ m.destinationChain ++ m.destinationAddress, m.payloadHash)

/-- Digests (32 bytes).  Only equality is used. -/
abbrev Digest := Nat

/-- `state.rs:173-184`: the hash of a message, for any hash function `H`. -/
def Message.hash (H : Str × List Nat → Digest) (m : Message) : Digest := H m.hashInput

end Amp.Router
