import Verif.Wire.HashProps
import Verif.Wire.QueryExamples
import Verif.Chain.ProverExample

/-!
# Concrete cases for C97
-/

namespace Amp.Wire

open Amp.Encoding (Bytes ofBE)
open Amp.Multisig (WorkerSet)
open Amp.Chain (Params exSetup exMsg1 answer)

/-! what is hashed -/

def exSet : WorkerSet := ⟨[(5, ⟨5, 1, .ecdsa (List.replicate 33 5)⟩), (6, ⟨6, 2, .ed25519 (List.replicate 32 6)⟩)], 2, 3⟩

example : setBytes exTexts exSet = utf8Bytes
    ("{\"signers\":{\"axelar15\":{\"address\":\"axelar15\",\"weight\":\"1\",\"pub_key\":{\"ecdsa\":" ++
      "\"050505050505050505050505050505050505050505050505050505050505050505\"}}," ++
      "\"axelar16\":{\"address\":\"axelar16\",\"weight\":\"2\",\"pub_key\":{\"ed25519\":" ++
      "\"0606060606060606060606060606060606060606060606060606060606060606\"}}}," ++
      "\"threshold\":\"2\",\"created_at\":3}").toList := by decide +kernel

example : operatorsBytes ⟨[([1, 171], 10)], 258⟩ =
    utf8Bytes "[[\"01ab\",\"10\"]]".toList ++ List.replicate 30 0 ++ [1, 2] := by decide +kernel

example : messageBytes exMsg1.hashInput =
    utf8Bytes ("eth:0xab:10xssui".toList ++ Prover.exAddress) ++ List.replicate 32 7 := by decide +kernel

/-! worker sets with different texts: other block height, threshold, weight, key or member -/

example : FullSetTyped exSet := by
  refine ⟨fun e he => ?_, by decide, by decide⟩
  simp only [exSet, List.mem_cons, List.not_mem_nil, or_false] at he
  rcases he with rfl | rfl
  · exact ⟨by decide, fun x hx => by rw [List.eq_of_mem_replicate hx]; decide, by decide⟩
  · exact ⟨by decide, fun x hx => by rw [List.eq_of_mem_replicate hx]; decide, by decide⟩

example : (setBytes exTexts { exSet with createdAt := 4 } ≠ setBytes exTexts exSet) ∧
    setBytes exTexts { exSet with threshold := 3 } ≠ setBytes exTexts exSet := by decide +kernel

/-! ### A history in which ids are hashes of texts -/

theorem poly_bytes (b : Bytes) : IsBytes (Prover.polyHash b) := exP_bytes b

/-- a toy function in place of Keccak-256, and ids made from it as in the code -/
def exHashP : Params where
  H := ⟨fun i => ofBE (Prover.polyHash (messageBytes i)), fun o => ofBE (Prover.polyHash (operatorsBytes o))⟩
  X := { Prover.tX with
    wsHash := fun ws => Prover.polyHash (setBytes exTexts ws)
    wsHash_length := fun ws => Prover.tX.keccak_length _
    wsHash_bytes := fun ws => poly_bytes _ }
  C := Multisig.exCrypto

theorem exHashed : Hashed exTexts exHashP := ⟨poly_bytes, fun _ => rfl, fun _ => rfl, fun _ => rfl⟩

example : (textLog exTexture exHashP exSetup exTextTxs).length = 37 := by
  rw [exText_log poly_bytes]; decide +kernel

/-- one worker set is registered -/
theorem exHash_sets : Chain.setsAt 18 (textLog exTexture exHashP exSetup exTextTxs) =
    [⟨[5, 6, 7].map (fun a => (a, ⟨a, 1, .ecdsa (List.replicate 33 a)⟩)), 2, 3⟩] := by
  rw [exText_log poly_bytes]; decide +kernel

theorem exHash_wired : Chain.Wired exSetup (textLog exTexture exHashP exSetup exTextTxs) 14 ⟨1, 1, 15⟩ ⟨2, 14⟩ := by
  refine ⟨rfl, rfl, ?_⟩
  intro e he _ n g hm
  have key : (textLog exTexture exHashP exSetup exTextTxs).all (fun e => Chain.exRegisters e.p.msg) = true := by
    rw [exText_log poly_bytes]; decide +kernel
  have h := List.all_eq_true.mp key e he
  have hg : g = 13 ∨ g = 17 := by
    rcases hm with hm | hm <;> rw [hm] at h <;> exact of_decide_eq_true h
  rcases hg with rfl | rfl
  · exact ⟨_, _, rfl, rfl, by unfold VV.Config.Valid; decide⟩
  · exact ⟨_, _, rfl, rfl, by unfold VV.Config.Valid; decide⟩

theorem exHash_proof : ∃ p d, askProofText exTexture exHashP (textWorldAfter exTexture exHashP exSetup exTextTxs) 19 1 = .ok p ∧
    p.status = .completed d := by
  have key : (match askProofText exTexture exHashP (textWorldAfter exTexture exHashP exSetup exTextTxs) 19 1 with
      | .ok p => match p.status with
        | .completed _ => true
        | .pending => false
      | .error _ => false) = true := by
    rw [exText_world poly_bytes]; decide +kernel
  split at key
  · rename_i p hp
    split at key
    · rename_i d hd
      exact ⟨p, d, hp, hd⟩
    · simp at key
  · simp at key

/-- C97_signed_verified applies, and as only one worker set was registered, its second case is impossible -/
example : ∃ cur digest signers ws msgs b, Prover.QuorumSigned exHashP.C cur digest signers ∧
    Prover.IsBatch exHashP.X ⟨17, 18, 10, 16, 10, ⟨2, 3⟩, Chain.sui, 1, .bcs⟩ ws msgs b ∧
    Prover.dataDigest exHashP.X .bcs b.data = .ok digest := by
  obtain ⟨p, d, h1, h2⟩ := exHash_proof
  rcases C97_signed_verified ex_sound exHashed exSetup_typed exTextTxs exText_range 14 _ _ exHash_wired 19 _ _ _ rfl _ rfl _ rfl
    rfl 1 (by decide) p d h1 h2 with h | ⟨ws, ws', ⟨e, he, ht, r, hm, hd⟩, ⟨e', he', ht', r', hm', hd'⟩, hne, _⟩
  · obtain ⟨_, _, _, cur, digest, signers, b, ws, msgs, _, _, _, hq, hd, hb, _⟩ := h
    exact ⟨cur, digest, signers, ws, msgs, b, hq, hb, hd⟩
  · exfalso
    have key : ∀ {e r ws}, e ∈ textLog exTexture exHashP exSetup exTextTxs → e.p.target = 18 →
        e.p.msg = .multisig (.registerWorkerSet r) → r.decode = .ok ws →
        ws = ⟨[5, 6, 7].map (fun a => (a, ⟨a, 1, .ecdsa (List.replicate 33 a)⟩)), 2, 3⟩ := by
      intro e r ws he ht hm hd
      have : ws ∈ Chain.setsAt 18 (textLog exTexture exHashP exSetup exTextTxs) := by
        refine List.mem_filterMap.mpr ⟨e, he, ?_⟩
        rw [if_pos ht, hm]
        simp only
        rw [hd]
      rw [exHash_sets] at this
      exact List.mem_singleton.mp this
    exact hne ((key he ht hm hd).trans (key he' ht' hm' hd').symm)

end Amp.Wire
