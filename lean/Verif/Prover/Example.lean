import Verif.Prover.Lemmas

/-! # A small prover used in examples -/

namespace Amp.Prover

open Amp.Encoding
open Amp.Multisig (Signature PublicKey Signer WorkerSet)
open Amp.Router (CCId Message ChainName)
open Amp.Registry (Worker)

/-- some functions in place of the hashes and the like -/
def exX : Ext where
  keccak b := (b.reverse ++ List.replicate 32 0).take 32
  wsHash ws := [ws.threshold % 256, ws.createdAt % 256, ws.signers.length % 256] ++ List.replicate 29 0
  uncompress b := some b
  parseH160 _ := none
  recoveryId _ _ _ := some 0
  keccak_length b := by simp
  wsHash_length ws := by simp
  wsHash_bytes ws := by
    intro x hx
    simp only [List.cons_append, List.nil_append, List.mem_cons, List.mem_replicate] at hx
    rcases hx with rfl | rfl | rfl | ⟨_, rfl⟩
    · exact Nat.mod_lt _ (by decide)
    · exact Nat.mod_lt _ (by decide)
    · exact Nat.mod_lt _ (by decide)
    · decide
  parseH160_length s b h := by simp at h

def exCfg : Config where
  gateway := 1
  multisig := 2
  serviceRegistry := 3
  votingVerifier := 4
  destinationChainId := 10
  signingThreshold := ⟨2, 3⟩
  chainName := "sui".toList
  diffThreshold := 1
  encoder := .bcs

/-- sixty-four hexadecimal digits -/
def exAddress : Str := List.replicate 64 'a'

def exMessage (id : CCId) : Message :=
  ⟨id, "src".toList, "sui".toList, exAddress, List.replicate 32 7⟩

def exWorker (a : Addr) : Worker := ⟨a, .bonded 100, .authorized, "svc".toList⟩

def exEnv (workers : List Addr) (height : Nat) : Env where
  height := height
  gateway ids := .ok (ids.map exMessage)
  activeWorkers := .ok (workers.map exWorker)
  publicKey a := .ok (.ecdsa [a])
  verified _ := .ok true

def exId1 : CCId := ⟨"eth".toList, "tx:1".toList⟩
def exId2 : CCId := ⟨"eth".toList, "tx:2".toList⟩

/-- the first set, a rotation, its confirmation, two batches, one of them asked for twice -/
def exCalls : List Call := [
  ⟨.updateWorkerSet, exEnv [5, 6, 7] 10, some none⟩,
  ⟨.updateWorkerSet, exEnv [5, 6, 8] 11, some (some 1)⟩,
  ⟨.confirmWorkerSet, exEnv [5, 6, 8] 12, some none⟩,
  ⟨.constructProof [exId1, exId2], exEnv [5, 6, 8] 13, some (some 2)⟩,
  ⟨.constructProof [exId2, exId1], exEnv [5, 6, 8] 14, some (some 3)⟩,
  ⟨.constructProof [exId2], exEnv [5, 6, 9] 15, some (some 4)⟩]

/-- a worker set with weights one and the example keys -/
def exSet (workers : List Addr) (threshold height : Nat) : WorkerSet :=
  ⟨workers.map (fun a => (a, ⟨a, 1, .ecdsa [a]⟩)), threshold, height⟩

example : (stateAfter exX exCfg (exCalls.take 1)).current = some (exSet [5, 6, 7] 2 10) := by decide +kernel
example : (stateAfter exX exCfg (exCalls.take 2)).next = some (exSet [5, 6, 8] 2 11) := by decide +kernel
example : (stateAfter exX exCfg (exCalls.take 3)).current = some (exSet [5, 6, 8] 2 11) := by decide +kernel
example : (steps (exec exX) (init exCfg) exCalls).length = 6 := by decide +kernel

end Amp.Prover
