import Verif.Ampd.Handlers
import Verif.VV.Model

/-!
# From the events of the voting verifier to the polls the handlers see

The verifier writes an event as attributes (`contracts/voting-verifier/src/events.rs:60-112`), the daemon reads
them back (`packages/events/src/event.rs:24-62`, `ampd/src/handlers/*: PollStartedEvent`).  Numbers, lists and
structures are written as JSON and read as JSON, which gives them back.  What is left are strings that the
daemon reads as something more specific; those functions are collected in `Reader`.
-/

namespace Amp.Ampd

open Amp.Encoding (Bytes)
open Amp.Router (ChainName Lowering)

/-- How the daemon reads strings of the event.  An attribute the contract writes as a plain string - source
chain and gateway address - is first tried as JSON (`event.rs:53-62`), and deserialization then demands a
string: `attr`.  Transaction hashes and EVM addresses are hexadecimal (`ethers::types::{H256, Address}`), with or
without prefix, capitals and small letters alike: `hash`, `addr`.  Sui digests are base 58, Sui addresses
hexadecimal: `digest`, `suiAddr`. -/
structure Reader where
  attr : Str → Option Str
  hash : Str → Option Bytes
  addr : Str → Option Bytes
  digest : Str → Option Bytes
  suiAddr : Str → Option Bytes

/-- `Vec<T>` is read if all its elements are -/
def readAll {α β : Type} (f : α → Option β) : List α → Option (List β)
  | [] => some []
  | a :: t =>
    match f a with
    | none => none
    | some b =>
      match readAll f t with
      | none => none
      | some bs => some (b :: bs)

/-- the type of an event as seen outside the contract: `wasm-` and the name given in
`voting-verifier/src/events.rs:94`, `104`, `execute.rs:165-171`, `207-213` -/
def eventType : VV.Event → Str
  | .messagesPollStarted _ _ => "wasm-messages_poll_started".toList
  | .workerSetPollStarted _ _ _ _ => "wasm-worker_set_poll_started".toList
  | .voted _ _ => "wasm-voted".toList
  | .pollEnded _ _ => "wasm-poll_ended".toList

/-- an event of the verifier at `contract`, as published -/
def announced (contract : Addr) (ev : VV.Event) : Abci (Addr × VV.Event) := ⟨eventType ev, (contract, ev)⟩

/-- operator addresses of twenty bytes (`EVMAddress`); weights are read as they are -/
def readOperator (o : Bytes × Nat) : Option (Bytes × Nat) := if o.1.length = 20 then some o else none

namespace Evm

/-- `evm_verify_msg.rs:31-39` (`Message`), read from `events.rs:128-142` (`TxEventConfirmation`) -/
def readMessage (L : Lowering) (R : Reader) (c : VV.TxConfirmation) : Option Message :=
  match R.hash c.txId with
  | none => none
  | some tx =>
    match ChainName.parse L c.destinationChain with
    | none => none
    | some dest =>
      match R.addr c.sourceAddress with
      | none => none
      | some src => some ⟨tx, c.eventIndex, c.destinationAddress, dest, src, c.payloadHash⟩

/-- `evm_verify_worker_set.rs:29-40`, read from `events.rs:114-126` (`WorkerSetConfirmation`) -/
def readWorkerSet (R : Reader) (tx : Str) (i : Nat) (o : Std.Operators) : Option WorkerSet :=
  match R.hash tx with
  | none => none
  | some h =>
    match readAll readOperator o.weights with
    | none => none
    | some ops => some ⟨h, i, ops, o.threshold⟩

/-- the metadata (`events.rs:60-83` and the `PollStartedEvent`s) -/
def readPoll {α : Type} (L : Lowering) (R : Reader) (contract : Addr) (pm : VV.PollMeta) (content : Option α) :
    Option (PollStarted α) :=
  match (R.attr pm.sourceChain).bind (ChainName.parse L) with
  | none => none
  | some chain =>
    match (R.attr pm.sourceGateway).bind R.addr with
    | none => none
    | some gateway =>
      match content with
      | none => none
      | some x => some ⟨contract, pm.pollId, chain, gateway, pm.confirmationHeight, pm.expiresAt, x,
          pm.participants⟩

/-- `evm_verify_msg.rs:41-53` (`PollStartedEvent`); other events lack its fields -/
def readMessagesPoll (L : Lowering) (R : Reader) (v : Addr × VV.Event) : Option (PollStarted (List Message)) :=
  match v.2 with
  | .messagesPollStarted confs pm => readPoll L R v.1 pm (readAll (readMessage L R) confs)
  | _ => none

/-- `evm_verify_worker_set.rs:42-54` (`PollStartedEvent`) -/
def readWorkerSetPoll (L : Lowering) (R : Reader) (v : Addr × VV.Event) : Option (PollStarted WorkerSet) :=
  match v.2 with
  | .workerSetPollStarted tx i o pm => readPoll L R v.1 pm (readWorkerSet R tx i o)
  | _ => none

end Evm

namespace Sui

/-- `sui_verify_msg.rs:25-33` -/
def readMessage (L : Lowering) (R : Reader) (c : VV.TxConfirmation) : Option Message :=
  match R.digest c.txId with
  | none => none
  | some tx =>
    match ChainName.parse L c.destinationChain with
    | none => none
    | some dest =>
      match R.suiAddr c.sourceAddress with
      | none => none
      | some src => some ⟨tx, c.eventIndex, c.destinationAddress, dest, src, c.payloadHash⟩

/-- `sui_verify_worker_set.rs:27-38`: operators are raw bytes, weights and threshold `Uint128` (they are
`Uint256` in the event) -/
def readWorkerSet (R : Reader) (tx : Str) (i : Nat) (o : Std.Operators) : Option WorkerSet :=
  match R.digest tx with
  | none => none
  | some h =>
    match readAll (fun p : Bytes × Nat => if p.2 ≤ u128Max then some p else none) o.weights with
    | none => none
    | some ops => if o.threshold ≤ u128Max then some ⟨h, i, ops, o.threshold⟩ else none

/-- the metadata, without source chain and confirmation height -/
def readPoll {α : Type} (R : Reader) (contract : Addr) (pm : VV.PollMeta) (content : Option α) :
    Option (PollStarted α) :=
  match (R.attr pm.sourceGateway).bind R.suiAddr with
  | none => none
  | some gateway =>
    match content with
    | none => none
    | some x => some ⟨contract, pm.pollId, gateway, x, pm.participants, pm.expiresAt⟩

/-- `sui_verify_msg.rs:35-45` (`PollStartedEvent`) -/
def readMessagesPoll (L : Lowering) (R : Reader) (v : Addr × VV.Event) : Option (PollStarted (List Message)) :=
  match v.2 with
  | .messagesPollStarted confs pm => readPoll R v.1 pm (readAll (readMessage L R) confs)
  | _ => none

/-- `sui_verify_worker_set.rs:40-50` (`PollStartedEvent`) -/
def readWorkerSetPoll (R : Reader) (v : Addr × VV.Event) : Option (PollStarted WorkerSet) :=
  match v.2 with
  | .workerSetPollStarted tx i o pm => readPoll R v.1 pm (readWorkerSet R tx i o)
  | _ => none

end Sui

end Amp.Ampd
