import Verif.Ampd.Handlers
import Verif.Encoding.AbiSpec
import Verif.Encoding.BcsSpec

/-! # What C68, C69 and C70 talk about -/

namespace Amp.Ampd

open Amp.Std (Vote)
open Amp.Encoding (Bytes)
open Amp.Router (ChainName Lowering)

namespace Evm

/-- The node says that block `b` is final: for Ethereum, not above the block tagged as finalized; for other
chains, the block and those on top of it are at least as many as the confirmations asked for. -/
def Final {D : Type} (c : Chain) (n : Node D) (confirmations b : Nat) : Prop :=
  match c with
  | .ethereum => ∃ f, n.finalizedBlock = some (some f) ∧ b ≤ f
  | .other _ => ∃ head, n.blockNumber = some head ∧ b + confirmations ≤ head + 1

/-- The node says which blocks are final.  (For other chains than Ethereum there must also be as many blocks
as confirmations asked for.) -/
def Answers {D : Type} (c : Chain) (n : Node D) (confirmations : Nat) : Prop :=
  match c with
  | .ethereum => ∃ f, n.finalizedBlock = some (some f)
  | .other _ => ∃ head, n.blockNumber = some head ∧ confirmations ≤ head

/-- block numbers stay below the bound of the type -/
def Bounded {D : Type} (n : Node D) : Prop :=
  (∀ f, n.finalizedBlock = some (some f) → f < u64Max) ∧ ∀ b, n.blockNumber = some b → b + 1 < u64Max

/-- The receipt shows that the gateway emitted, in the transaction and at the log index of the message, a
contract call with the sender, destination and payload hash of the message. -/
def Emitted {D : Type} (L : Lowering) (decodeLog : D → Option GatewayEvent) (gateway : Bytes)
    (r : Receipt D) (m : Message) : Prop :=
  r.txHash = m.txId ∧ ∃ l ∈ r.logs, l.index = some m.eventIndex ∧ l.txHash = some m.txId ∧
    l.address = gateway ∧ ∃ chain, L.f chain = m.destinationChain ∧
      decodeLog l.content =
        some (.contractCall m.sourceAddress chain m.destinationAddress m.payloadHash)

/-- The receipt shows that the gateway reported, in the transaction and at the log index given, the transfer
of operatorship to the operators, weights and threshold given. -/
def Transferred {D : Type} (decodeLog : D → Option GatewayEvent) (gateway : Bytes)
    (r : Receipt D) (w : WorkerSet) : Prop :=
  r.txHash = w.txId ∧ ∃ l ∈ r.logs, l.index = some w.eventIndex ∧ l.txHash = some w.txId ∧
    l.address = gateway ∧ ∃ data, decodeLog l.content = some (.operatorshipTransferred data) ∧
      Encoding.Abi.decodeOperatorship data =
        some (w.operators.map Prod.fst, w.operators.map Prod.snd, w.threshold)

/-- no two logs of the receipt have the same index -/
def DistinctLogs {D : Type} (r : Receipt D) : Prop :=
  r.logs.Pairwise (fun a b => a.index = none ∨ a.index ≠ b.index)

/-- the node returns the receipt that was asked for, with distinct log indices -/
def Honest {D : Type} (n : Node D) : Prop :=
  ∀ h r, n.receipt h = some (some r) → r.txHash = h ∧ DistinctLogs r

/-- iterating over a set goes through its elements -/
def Iterates (order : List Bytes → List Bytes) : Prop := ∀ l x, x ∈ order l ↔ x ∈ l

/-- addresses have twenty bytes, weights and threshold fit their type -/
def WorkerSet.Valid (w : WorkerSet) : Prop :=
  (∀ o ∈ w.operators, o.1.length = 20 ∧ o.2 ≤ u256Max) ∧ w.threshold ≤ u256Max

/-- The event starts a poll of the handler's verifier about the handler's chain, the worker takes part in it
and it is not expired. -/
def Concerns {V α : Type} (name : Str) (deser : V → Option (PollStarted α)) (H : Handler) (latest : Nat)
    (e : Event (Abci V)) (p : PollStarted α) : Prop :=
  (∃ a, e = .abci a ∧ a.type = name ∧ deser a.attributes = some p) ∧
    p.contract = H.votingVerifier ∧
    p.sourceChain.map Char.toLower = H.chain.show.map Char.toLower ∧
    H.worker ∈ p.participants ∧ latest < p.expiresAt

end Evm

namespace Sui

/-- The transaction block shows that the gateway package emitted, in the transaction and at the sequence
number of the message, a contract call with the source, destination and payload hash of the message. -/
def Emitted {J : Type} (L : Lowering) (P : Json J) (gateway : Bytes) (b : TxBlock J) (m : Message) : Prop :=
  b.digest = m.txId ∧ b.checkpoint.isSome ∧ ∃ es, b.events = some es ∧ ∃ e ∈ es, e.seq = m.eventIndex ∧
    e.type = ⟨gateway, "gateway".toList, "ContractCall".toList, []⟩ ∧
    ∃ chain, L.f chain = m.destinationChain ∧
      P.contractCall e.json = some ⟨m.sourceAddress, chain, m.destinationAddress, m.payloadHash⟩

/-- The transaction block shows the transfer of operatorship to the operators, weights and threshold given. -/
def Transferred {J : Type} (P : Json J) (gateway : Bytes) (b : TxBlock J) (w : WorkerSet) : Prop :=
  b.digest = w.txId ∧ b.checkpoint.isSome ∧ ∃ es, b.events = some es ∧ ∃ e ∈ es, e.seq = w.eventIndex ∧
    e.type = ⟨gateway, "validators".toList, "OperatorshipTransferred".toList, []⟩ ∧
    ∃ data, P.operatorship e.json = some data ∧
      Encoding.Bcs.decodeOperatorship data =
        some (w.operators.map Prod.fst, w.operators.map Prod.snd, w.threshold)

/-- no two events of the block have the same sequence number -/
def DistinctEvents {J : Type} (b : TxBlock J) : Prop :=
  ∀ es, b.events = some es → es.Pairwise (fun x y => x.seq ≠ y.seq)

/-- the node answers with one block for each digest asked for, and the events are numbered -/
def Honest {J : Type} (n : Node J) (digests : List Bytes) : Prop :=
  ∃ bs, n.multiGet digests = some bs ∧ bs.map TxBlock.digest = digests ∧ digests.Nodup ∧
    ∀ b ∈ bs, DistinctEvents b

/-- weights and threshold fit their type -/
def WorkerSet.Valid (w : WorkerSet) : Prop :=
  (∀ o ∈ w.operators, o.2 ≤ u128Max) ∧ w.threshold ≤ u128Max

/-- The event starts a poll of the handler's verifier, the worker takes part in it and it is not expired. -/
def Concerns {V α : Type} (name : Str) (deser : V → Option (PollStarted α)) (H : Handler) (latest : Nat)
    (e : Event (Abci V)) (p : PollStarted α) : Prop :=
  (∃ a, e = .abci a ∧ a.type = name ∧ deser a.attributes = some p) ∧
    p.contract = H.votingVerifier ∧ H.worker ∈ p.participants ∧ latest < p.expiresAt

end Sui

/-- An event of the given type that cannot be decoded. -/
def Undecodable {V E : Type} (name : Str) (deser : V → Option E) (e : Event (Abci V)) : Prop :=
  ∃ a, e = .abci a ∧ a.type = name ∧ deser a.attributes = none

end Amp.Ampd
