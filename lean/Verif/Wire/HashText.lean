import Verif.Wire.QueryLemmas
import Verif.Prover.System
import Verif.Encoding.Bytes

/-!
# What is hashed into ids

Elsewhere in the model the hash of a worker set, of operators and of a message are functions of the value (`Ext.wsHash`,
`VV.Hashes`).  Here are the bytes that the code feeds to Keccak-256.
-/

namespace Amp.Wire

open Amp.Encoding (Bytes be ofBE)
open Amp.Router (Message)
open Amp.Multisig (WorkerSet)

/-- `Serialize` derived for `WorkerSet` (`multisig/src/worker_set.rs:9-20`): a map whose keys are addresses in ascending
order, numbers of 256 bits as text, the block height as a number.  Simplification: addresses are taken to be numbered in
the order of their texts. -/
def jsonWorkerSetFull (T : Texts) (ws : WorkerSet) : Json :=
  .obj [("signers".toList, .obj (ws.signers.map (fun e => (T.text e.1, jsonFullSigner T e.2)))),
    ("threshold".toList, jsonUint ws.threshold), ("created_at".toList, .nat ws.createdAt)]

/-- `multisig/src/worker_set.rs:49-53` (`WorkerSet::hash`): what is hashed -/
def setBytes (T : Texts) (ws : WorkerSet) : Bytes := utf8Bytes (jsonWorkerSetFull T ws).render

/-- `axelar-wasm-std/src/operators.rs:24-31` (`Operators::hash`): what is hashed, the text of the weights and the 32 bytes of
the threshold -/
def operatorsBytes (o : Std.Operators) : Bytes :=
  utf8Bytes (Json.arr (o.weights.map jsonOperator)).render ++ be 32 o.threshold

/-- `connection-router/src/state.rs:173-184` (`Message::hash`): what is hashed, texts one after the other without separators
and the 32 bytes of the payload hash; the texts are those of `Message.hashInput` -/
def messageBytes (i : Str × List Nat) : Bytes := utf8Bytes i.1 ++ i.2

end Amp.Wire
