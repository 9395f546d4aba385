import Verif.Wire.Events

/-!
# Specification for C94: what a reader of an event should find in it
-/

namespace Amp.Wire

open Amp.Encoding (Bytes)
open Amp.Router (ChainName Lowering)
open Amp.Multisig (PublicKey)

/-- What the daemon takes the text `s` of an attribute for: the text itself if it is not JSON, the content if it is a JSON
string.  Any other JSON is not a text. -/
def ReadsAs (finite : Str → Bool) (s t : Str) : Prop := fromStr finite s = none ∧ t = s ∨ fromStr finite s = some (.str t)

namespace Evm

/-- the message `m` of the daemon is the confirmation `c` of the contract -/
structure SameMessage (L : Lowering) (c : VV.TxConfirmation) (m : Ampd.Evm.Message) : Prop where
  txId : fixedHex 32 c.txId = some m.txId
  eventIndex : m.eventIndex = c.eventIndex
  destinationAddress : m.destinationAddress = c.destinationAddress
  destinationChain : ChainName.parse L c.destinationChain = some m.destinationChain
  sourceAddress : fixedHex 20 c.sourceAddress = some m.sourceAddress
  payloadHash : m.payloadHash = c.payloadHash

/-- the same for a worker set; operators have addresses of twenty bytes -/
structure SameWorkerSet (tx : Str) (i : Nat) (o : Std.Operators) (w : Ampd.Evm.WorkerSet) : Prop where
  txId : fixedHex 32 tx = some w.txId
  eventIndex : w.eventIndex = i
  operators : w.operators = o.weights
  lengths : ∀ p ∈ o.weights, p.1.length = 20
  threshold : w.threshold = o.threshold

/-- the poll `p` of the daemon is the poll announced by `V` with the metadata `pm` -/
structure SamePoll {α : Type} (finite : Str → Bool) (L : Lowering) (V : Addr) (pm : VV.PollMeta)
    (p : Ampd.Evm.PollStarted α) : Prop where
  contract : p.contract = V
  pollId : p.pollId = pm.pollId
  sourceChain : ∃ s, ReadsAs finite pm.sourceChain s ∧ ChainName.parse L s = some p.sourceChain
  sourceGateway : ∃ s, ReadsAs finite pm.sourceGateway s ∧ fixedHex 20 s = some p.sourceGateway
  confirmationHeight : p.confirmationHeight = pm.confirmationHeight
  expiresAt : p.expiresAt = pm.expiresAt
  participants : p.participants = pm.participants

end Evm

namespace Sui

/-- the message `m` of the daemon is the confirmation `c` of the contract -/
structure SameMessage (L : Lowering) (T : Texts) (c : VV.TxConfirmation) (m : Ampd.Sui.Message) : Prop where
  txId : T.digest c.txId = some m.txId
  eventIndex : m.eventIndex = c.eventIndex
  destinationAddress : m.destinationAddress = c.destinationAddress
  destinationChain : ChainName.parse L c.destinationChain = some m.destinationChain
  sourceAddress : T.suiAddr c.sourceAddress = some m.sourceAddress
  payloadHash : m.payloadHash = c.payloadHash

/-- the same for a worker set; weights and threshold have 128 bits -/
structure SameWorkerSet (T : Texts) (tx : Str) (i : Nat) (o : Std.Operators) (w : Ampd.Sui.WorkerSet) : Prop where
  txId : T.digest tx = some w.txId
  eventIndex : w.eventIndex = i
  operators : w.operators = o.weights
  weights : ∀ p ∈ o.weights, p.2 ≤ u128Max
  threshold : w.threshold = o.threshold
  small : o.threshold ≤ u128Max

/-- the poll `p` of the daemon is the poll announced by `V` with the metadata `pm` -/
structure SamePoll {α : Type} (finite : Str → Bool) (T : Texts) (V : Addr) (pm : VV.PollMeta)
    (p : Ampd.Sui.PollStarted α) : Prop where
  contract : p.contract = V
  pollId : p.pollId = pm.pollId
  sourceGateway : ∃ s, ReadsAs finite pm.sourceGateway s ∧ T.suiAddr s = some p.sourceGateway
  expiresAt : p.expiresAt = pm.expiresAt
  participants : p.participants = pm.participants

end Sui

/-- the session `s` of the daemon is the session announced by `M`; `curve` gives the key if it is a point of its curve -/
structure Signing.SameSession (finite : Str → Bool) (curve : PublicKey → Option Bytes) (M : Addr) (id : Nat)
    (keys : List (Addr × PublicKey)) (msg : Bytes) (s : Ampd.Signing.SigningStarted) : Prop where
  contract : s.contract = M
  sessionId : s.sessionId = id
  keys : List.Forall₂ (fun p q => q.1 = p.1 ∧ curve p.2 = some q.2) keys s.pubKeys
  readable : ReadsAs finite (encodeHex msg) (encodeHex msg)
  digest : s.msg = msg
  length : msg.length = 32

end Amp.Wire
