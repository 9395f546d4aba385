import Verif.Encoding.Bytes
import Verif.Multisig.Model
import Verif.Router.Types
import Verif.Std.Operators

/-!
# Data types of the multisig prover that are encoded and signed (`contracts/multisig-prover/src`)
-/

namespace Amp.Encoding

open Amp.Multisig (Signature PublicKey Signer WorkerSet)
open Amp.Router (CCId Message)

/-- `error.rs`, with `panic` for everything that aborts -/
inductive Err
  | panic
  | invalidMessage
  | invalidPublicKey
  | invalidContractReply
  | std
  | bcs
  | serviceRegistry
  | nonEmpty
  | workerSetUnchanged
  | workerSetNotConfirmed
  | workerSetConfirmationInProgress
  | noWorkerSet
  deriving DecidableEq, Repr

/-- `encoding/mod.rs:17-22` -/
inductive Encoder
  | abi
  | bcs
  deriving DecidableEq, Repr

/-- `types.rs:16-20` -/
inductive CommandType
  | approveContractCall
  | transferOperatorship
  deriving DecidableEq, Repr

/-- `types.rs:22-29` (`Display for CommandType`) -/
def CommandType.show : CommandType → Str
  | .approveContractCall => "approveContractCall".toList
  | .transferOperatorship => "transferOperatorship".toList

/-- `types.rs:31-36` -/
structure Command where
  id : Bytes
  ty : CommandType
  params : Bytes
  deriving DecidableEq, Repr

/-- `encoding/mod.rs:129-133` -/
structure Data where
  destinationChainId : Nat
  commands : List Command
  deriving DecidableEq, Repr

/-- `types.rs:95-101` -/
structure Operator where
  address : Bytes
  weight : Nat
  signature : Option Signature
  deriving DecidableEq, Repr

/-- What the code takes from libraries, as arbitrary functions of which only the result lengths are
fixed:
* `keccak`: Keccak-256;
* `wsHash`: `multisig/src/worker_set.rs:49-53`, Keccak-256 of the JSON text of a worker set;
* `uncompress`: SEC1 decoding of a public key to the 65 bytes of the uncompressed point;
* `parseH160`: `ethereum_types::Address::from_str`;
* `recoveryId`: the recovery id found for (digest, public key, signature), `multisig/src/key.rs:31-48`. -/
structure Ext where
  keccak : Bytes → Bytes
  wsHash : WorkerSet → Bytes
  uncompress : Bytes → Option Bytes
  parseH160 : Str → Option Bytes
  recoveryId : Bytes → Bytes → Bytes → Option Nat
  keccak_length : ∀ b, (keccak b).length = 32
  wsHash_length : ∀ ws, (wsHash ws).length = 32
  wsHash_bytes : ∀ ws, IsBytes (wsHash ws)
  parseH160_length : ∀ s b, parseH160 s = some b → b.length = 20

/-- a stable insertion sort by a comparison function: every stable sort gives this result -/
def insertBy {α : Type} (leq : α → α → Bool) (x : α) : List α → List α
  | [] => [x]
  | y :: t => if leq x y then x :: y :: t else y :: insertBy leq x t

/-- `slice::sort_by` / `Itertools::sorted_by` -/
def sortBy {α : Type} (leq : α → α → Bool) : List α → List α
  | [] => []
  | x :: t => insertBy leq x (sortBy leq t)

/-- the derived order of `Signature` (`multisig/src/key.rs:16-22`): variant first, then the bytes -/
def sigLe : Option Signature → Option Signature → Bool
  | none, _ => true
  | some _, none => false
  | some (.ecdsa a), some (.ecdsa b) => decide (a ≤ b)
  | some (.ecdsa _), some _ => true
  | some (.ecdsaRecoverable _), some (.ecdsa _) => false
  | some (.ecdsaRecoverable a), some (.ecdsaRecoverable b) => decide (a ≤ b)
  | some (.ecdsaRecoverable _), some (.ed25519 _) => true
  | some (.ed25519 a), some (.ed25519 b) => decide (a ≤ b)
  | some (.ed25519 _), some _ => false

/-- the derived order of `Operator` (`types.rs:95-101`): address, weight, signature -/
def opLe (a b : Operator) : Bool :=
  if a.address < b.address then true
  else if b.address < a.address then false
  else if a.weight < b.weight then true
  else if b.weight < a.weight then false
  else sigLe a.signature b.signature

end Amp.Encoding
