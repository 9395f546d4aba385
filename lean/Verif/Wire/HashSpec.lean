import Verif.Wire.HashText
import Verif.Chain.ProverProps
import Verif.Wire.TextChainSpec

/-!
# Specification for C97
-/

namespace Amp.Wire

open Amp.Encoding (Bytes ofBE)
open Amp.Multisig (WorkerSet)
open Amp.Chain (Params Entry)

/-- ids are made by hashing these bytes with Keccak-256; digests that are storage keys are given as numbers -/
structure Hashed (T : Texts) (P : Params) : Prop where
  bytes : ∀ b, IsBytes (P.X.keccak b)
  workerSet : ∀ ws, P.X.wsHash ws = P.X.keccak (setBytes T ws)
  operators : ∀ o, P.H.ops o = ofBE (P.X.keccak (operatorsBytes o))
  message : ∀ i, P.H.msg i = ofBE (P.X.keccak (messageBytes i))

/-- two different byte strings with the same hash -/
def Collide (P : Params) (a b : Bytes) : Prop := a ≠ b ∧ P.X.keccak a = P.X.keccak b

/-- a worker set of its type: numbers in range, keys of the length of their kind -/
structure FullSetTyped (ws : WorkerSet) : Prop where
  signers : ∀ e ∈ ws.signers, e.2.weight ≤ u256Max ∧ KeyFits e.2.pubKey
  threshold : ws.threshold ≤ u256Max
  createdAt : ws.createdAt ≤ u64Max

/-- these worker sets were registered at the multisig contract at `M` -/
def RegisteredAt (l : List Entry) (M : Addr) (ws : WorkerSet) : Prop :=
  ∃ e ∈ l, e.p.target = M ∧ ∃ r, e.p.msg = .multisig (.registerWorkerSet r) ∧ r.decode = .ok ws

end Amp.Wire
