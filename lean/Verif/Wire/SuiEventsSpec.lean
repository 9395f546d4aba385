import Verif.Ampd.HandlersSpec
import Verif.Wire.SuiEvents

/-!
# C112: what the contents of a Sui event say (specification)
-/

namespace Amp.Wire

open Amp.Encoding (Bytes)
open Amp.Router (Lowering)
open Amp.Ampd.Sui (ContractCall TxBlock Message WorkerSet)

/-- the field `k` of an object is `v` (of several with the same name, the last counts) -/
def HasField (l : List (Str × Json)) (k : Str) (v : Json) : Prop :=
  ∃ before after, l = before ++ (k, v) :: after ∧ ∀ p ∈ after, p.1 ≠ k

/-- the text writes 32 bytes as two hexadecimal digits each, of either case, with or without `0x` before them -/
def Writes32 (s : Str) (b : Bytes) : Prop :=
  b.length = 32 ∧ IsBytes b ∧
    ∃ t : Str, (s = t ∨ s = "0x".toList ++ t) ∧ t.map Char.toLower = encodeHex b

/-- the contents of an event say that a contract call was made: an object whose fields name the caller, the destination
chain, the destination address and the hash of the payload (whatever other fields there are), or an array of these four -/
def SaysSuiCall (j : Json) (c : ContractCall) : Prop :=
  ∃ source hash : Str, Writes32 source c.sourceId ∧ Writes32 hash c.payloadHash ∧
    ((∃ l, j = .obj l ∧ HasField l "source_id".toList (.str source) ∧
        HasField l "destination_chain".toList (.str c.destinationChain) ∧
        HasField l "destination_address".toList (.str c.destinationAddress) ∧
        HasField l "payload_hash".toList (.str hash)) ∨
      j = .arr [.str source, .str c.destinationChain, .str c.destinationAddress, .str hash])

/-- the contents of an event say that operatorship was transferred, with these bytes as operators -/
def SaysSuiTransfer (j : Json) (payload : Bytes) : Prop :=
  IsBytes payload ∧
    ((∃ l, j = .obj l ∧ HasField l "payload".toList (.arr (payload.map .nat))) ∨
      j = .arr [.arr (payload.map .nat)])

/-- What a Sui node shows for a contract call of the gateway: addresses and hashes with `0x`, strings as they are, the
payload as numbers. -/
def shownCall (source : Bytes) (chain address : Str) (payload hash : Bytes) : Json :=
  .obj [("destination_address".toList, .str address), ("destination_chain".toList, .str chain),
    ("payload".toList, .arr (payload.map .nat)), ("payload_hash".toList, .str ("0x".toList ++ encodeHex hash)),
    ("source_id".toList, .str ("0x".toList ++ encodeHex source))]

/-- what a Sui node shows for a transfer of operatorship -/
def shownTransfer (payload : Bytes) : Json := .obj [("payload".toList, .arr (payload.map .nat))]

/-- the block of a transaction, in a checkpoint, shows the message: the event with its number is a contract call of the
gateway package, and its contents say what the message says -/
def ShowsSuiCall (L : Lowering) (gateway : Bytes) (b : TxBlock Json) (m : Message) : Prop :=
  b.digest = m.txId ∧ b.checkpoint.isSome ∧ ∃ es, b.events = some es ∧ ∃ e ∈ es, e.seq = m.eventIndex ∧
    e.type = ⟨gateway, "gateway".toList, "ContractCall".toList, []⟩ ∧
    ∃ chain, L.f chain = m.destinationChain ∧
      SaysSuiCall e.json ⟨m.sourceAddress, chain, m.destinationAddress, m.payloadHash⟩

/-- the block of a transaction, in a checkpoint, shows the transfer of operatorship to the operators given: the contents
say the BCS bytes of their addresses, their weights and the threshold -/
def ShowsSuiTransfer (gateway : Bytes) (b : TxBlock Json) (w : WorkerSet) : Prop :=
  b.digest = w.txId ∧ b.checkpoint.isSome ∧ ∃ es, b.events = some es ∧ ∃ e ∈ es, e.seq = w.eventIndex ∧
    e.type = ⟨gateway, "validators".toList, "OperatorshipTransferred".toList, []⟩ ∧
    ∃ data, SaysSuiTransfer e.json data ∧
      Encoding.Bcs.decodeOperatorship data =
        some (w.operators.map Prod.fst, w.operators.map Prod.snd, w.threshold)

end Amp.Wire
