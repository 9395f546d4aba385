import Verif.Prover.Encodable
import Verif.Prover.SystemExample

/-!
# C85 in concrete cases
-/

namespace Amp.Prover

open Amp.Encoding
open Amp.Multisig (Signature PublicKey Signer WorkerSet)
open Amp.Router (CCId Message ChainName)

/-- reads an address of forty digits, and keys that start with a 2 or a 3 are points of the curve -/
def uX : Ext where
  keccak b := tX.keccak b
  wsHash ws := tX.wsHash ws
  uncompress b := if b.head? = some 2 ∨ b.head? = some 3 then some (b ++ List.replicate 32 0) else none
  parseH160 s := if s.length = 40 then some (List.replicate 20 1) else none
  recoveryId _ _ _ := some 0
  keccak_length b := tX.keccak_length b
  wsHash_length ws := tX.wsHash_length ws
  wsHash_bytes ws := tX.wsHash_bytes ws
  parseH160_length s b h := by
    split at h
    · simp only [Option.some.injEq] at h
      subst h
      simp
    · simp at h

def uCfg : Config := { exCfg with encoder := .abi }

/-- a message to an address of forty digits -/
def uMsg : Message := ⟨exId1, "src".toList, "sui".toList, List.replicate 40 'b', List.replicate 32 7⟩

/-- a worker set with keys that start with the byte -/
def uSet (first : Nat) : WorkerSet :=
  ⟨[5, 6].map (fun a => (a, ⟨a, 1, .ecdsa (first :: List.replicate 32 a)⟩)), 2, 9⟩

/-- the hypotheses of `C85_batch` hold for a transfer to the set and an approval, and the batch can be signed if and
only if the keys are points of the curve -/
example (first : Nat) : (∃ b digest, IsBatch uX uCfg (some (uSet first)) [uMsg] b ∧
    dataDigest uX .abi b.data = .ok digest ∧ digest.length = 32) ↔ first = 2 ∨ first = 3 := by
  refine (C85_batch uX uCfg (some (uSet first)) [uMsg] ?_ trivial (show 1000 * (1 + 1 + 2) + _ < _ by decide)).trans ?_
  · rintro ws ⟨⟩
    refine ⟨?_, ?_, show 2 ≤ u256Max by decide⟩
    · intro e he
      simp only [uSet, List.map_cons, List.map_nil, List.mem_cons, List.not_mem_nil, or_false] at he
      rcases he with rfl | rfl <;> simp [PublicKey.bytes]
    · intro e he
      simp only [uSet, List.map_cons, List.map_nil, List.mem_cons, List.not_mem_nil, or_false] at he
      rcases he with rfl | rfl <;> simp [maxWeight, uCfg, u256Max]
  · constructor
    · rintro ⟨_, h⟩
      have := h _ rfl (5, ⟨5, 1, .ecdsa (first :: List.replicate 32 5)⟩) (by simp [uSet])
      simp only [Nameable, uCfg, uX, PublicKey.bytes] at this
      split at this
      · rename_i h; simpa using h
      · simp at this
    · intro hf
      refine ⟨?_, ?_⟩
      · intro m hm
        rw [List.mem_singleton.mp hm]
        rfl
      · rintro ws ⟨⟩ e he
        simp only [uSet, List.map_cons, List.map_nil, List.mem_cons, List.not_mem_nil, or_false] at he
        rcases he with rfl | rfl <;> rcases hf with rfl | rfl <;> rfl

/-- a message to an address of 39 digits can not be in a batch for an EVM chain, and on Sui it must have 64 -/
example : ¬ Addressable uX .abi { uMsg with destinationAddress := List.replicate 39 'b' } ∧
    Addressable uX .abi uMsg ∧ ¬ Addressable uX .bcs uMsg ∧
    Addressable uX .bcs { uMsg with destinationAddress := '0' :: 'x' :: List.replicate 64 'b' } := by
  refine ⟨by unfold Addressable; decide, by unfold Addressable; decide, ?_, ?_⟩
  · rintro ⟨a, h1, h2⟩
    have : (decodeHex (Bcs.stripPrefix uMsg.destinationAddress)).map List.length = some 20 := by decide +kernel
    rw [h1] at this
    simp only [Option.map_some, Option.some.injEq] at this
    omega
  · exact ⟨_, rfl, by decide +kernel⟩

/-- the hypotheses of `C85_payload` hold for the batch, a current set of two of which one signed -/
example : ∃ b d, IsBatch uX uCfg (some (uSet 2)) [uMsg] b ∧
    executeDataOf uX .abi b.data 2 [(⟨5, 1, .ecdsa (3 :: List.replicate 32 5)⟩, some (.ecdsa (List.replicate 64 3))),
      (⟨6, 1, .ecdsa (3 :: List.replicate 32 6)⟩, none)] = .ok d := by
  have hb : (match buildBatch uX uCfg (some (uSet 2)) [uMsg] with | .ok _ => true | .error _ => false) = true := by
    decide +kernel
  split at hb
  · rename_i b h
    have hib := (isBatch_build h).1
    have hsz : ∀ first ws, some (uSet first) = some ws → KeysSized ws ∧
        (∀ e ∈ ws.signers, e.2.weight ≤ maxWeight uCfg.encoder) ∧ ws.threshold ≤ maxWeight uCfg.encoder := by
      rintro first ws ⟨⟩
      refine ⟨?_, ?_, show 2 ≤ u256Max by decide⟩
      · intro e he
        simp only [uSet, List.map_cons, List.map_nil, List.mem_cons, List.not_mem_nil, or_false] at he
        rcases he with rfl | rfl <;> simp [PublicKey.bytes]
      · intro e he
        simp only [uSet, List.map_cons, List.map_nil, List.mem_cons, List.not_mem_nil, or_false] at he
        rcases he with rfl | rfl <;> simp [maxWeight, uCfg, u256Max]
    obtain ⟨d, hd⟩ := C85_payload uX Multisig.exCrypto uCfg (some (uSet 2)) [uMsg] b hib (hsz 2) trivial (uSet 3)
      (by decide) ⟨by
        intro e he
        simp only [uSet, List.map_cons, List.map_nil, List.mem_cons, List.not_mem_nil, or_false] at he
        rcases he with rfl | rfl <;> rfl, (hsz 3 _ rfl).2.1, (hsz 3 _ rfl).2.2⟩ (hsz 3 _ rfl).1 (List.replicate 32 1)
      [(⟨5, 1, .ecdsa (3 :: List.replicate 32 5)⟩, some (.ecdsa (List.replicate 64 3))),
        (⟨6, 1, .ecdsa (3 :: List.replicate 32 6)⟩, none)]
      (by
        intro e he
        simp only [List.mem_cons, List.not_mem_nil, or_false] at he
        rcases he with rfl | rfl
        · exact ⟨5, by simp [uSet]⟩
        · exact ⟨6, by simp [uSet]⟩) rfl
      (by
        intro sg sig hm
        simp only [List.mem_cons, Prod.mk.injEq, Option.some.injEq, List.not_mem_nil, or_false] at hm
        rcases hm with ⟨rfl, rfl⟩ | ⟨_, h⟩
        · refine ⟨by rfl, ?_⟩
          decide +kernel
        · simp at h)
    exact ⟨b, d, hib, hd⟩
  · simp at hb

end Amp.Prover
