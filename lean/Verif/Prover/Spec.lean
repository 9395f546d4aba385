import Verif.Prover.Model

/-!
# What the prover is meant to do, without reference to how it does it
-/

namespace Amp.Prover

open Amp.Encoding
open Amp.Multisig (Signature PublicKey Signer WorkerSet)
open Amp.Router (CCId Message ChainName)
open Amp.Registry (Worker)

/-! ### Worker sets -/

/-- how a signer is known on the destination chain: by the address derived from their key on EVM chains,
by the key itself on Sui -/
def destAddress (X : Ext) (enc : Encoder) (key : PublicKey) : Except Err Bytes :=
  match enc with
  | .abi => Abi.evmAddress X key.bytes
  | .bcs => .ok key.bytes

/-- `ops` lists the signers of `ws` as the destination chain knows them: each with their weight, in
ascending order of addresses, with the threshold of `ws` -/
def IsOperators (X : Ext) (enc : Encoder) (ws : WorkerSet) (ops : Std.Operators) : Prop :=
  ops.threshold = ws.threshold ∧ (ops.weights.map Prod.fst).Pairwise (· ≤ ·) ∧
    (ops.weights.map (fun o => ((Except.ok o.1 : Except Err Bytes), o.2))).Perm
      (ws.signers.map (fun e => (destAddress X enc e.2.pubKey, e.2.weight)))

/-- `ws` is the set of the workers in `workers`, each with weight one and their registered key; the
threshold is the smallest number that is at least the fraction `th` of them; it is stamped with `height` -/
structure SetOf (th : Std.MajorityThreshold) (keys : Addr → Except Err PublicKey) (height : Nat)
    (workers : List Worker) (ws : WorkerSet) : Prop where
  nonEmpty : workers ≠ []
  bonded : ∀ w ∈ workers, ∃ n, w.bonding = .bonded n
  sorted : (ws.signers.map Prod.fst).Pairwise (· < ·)
  signers : ∀ a sg, (a, sg) ∈ ws.signers ↔
    (∃ w ∈ workers, w.address = a) ∧ sg.address = a ∧ sg.weight = 1 ∧ keys a = .ok sg.pubKey
  threshold : ∀ n d, Std.MajorityThreshold.ofPair n d = .ok th →
    ∀ q, ws.threshold ≤ q ↔ workers.length * n ≤ q * d
  createdAt : ws.createdAt = height

/-- the signers of `a` that are not, with the same address, weight and key, in `b` -/
def missingFrom (a b : WorkerSet) : List (Addr × Signer) :=
  a.signers.filter (fun e => decide (b.signers.get? e.1 ≠ some e.2))

/-- the number of signers joining plus leaving -/
def membershipChanges (new cur : WorkerSet) : Nat :=
  (missingFrom new cur).length + (missingFrom cur new).length

/-- the total weight of a worker set -/
def setWeight (ws : WorkerSet) : Nat := (ws.signers.map (fun e => e.2.weight)).sum

/-- the two sets have the same signers and the same threshold; they may differ in the height of creation -/
def SameSet (a b : WorkerSet) : Prop := a.signers = b.signers ∧ a.threshold = b.threshold

/-! ### Batches -/

/-- a command that hands the gateway over to `ws` -/
def IsTransfer (X : Ext) (enc : Encoder) (ws : WorkerSet) (c : Command) : Prop :=
  c.ty = .transferOperatorship ∧ c.id = X.wsHash ws ∧
    match enc with
    | .abi => Abi.transferOperatorshipParams X ws = .ok c.params
    | .bcs => Bcs.transferOperatorshipParams ws = .ok c.params

/-- a command that approves `m` on the destination chain -/
def IsApproval (X : Ext) (enc : Encoder) (m : Message) (c : Command) : Prop :=
  c.ty = .approveContractCall ∧ c.id = X.keccak (utf8Bytes m.ccId.show) ∧
    match enc with
    | .abi => Abi.commandParams X m.ccId.chain m.sourceAddress m.destinationAddress m.payloadHash = .ok c.params
    | .bcs => Bcs.commandParams m.ccId.chain m.sourceAddress m.destinationAddress m.payloadHash = .ok c.params

/-- the batch has, after the transfer to `ws` if any, one approval per message, in the order of the
messages, and nothing else -/
structure IsBatch (X : Ext) (cfg : Config) (ws : Option WorkerSet) (msgs : List Message) (b : Batch) :
    Prop where
  ids : b.messageIds = msgs.map (·.ccId)
  encoder : b.encoder = cfg.encoder
  chainId : b.data.destinationChainId = cfg.destinationChainId
  commands : ∃ transfer approvals, b.data.commands = transfer ++ approvals ∧
    (match ws with
      | none => transfer = []
      | some ws => ∃ c, transfer = [c] ∧ IsTransfer X cfg.encoder ws c) ∧
    List.Forall₂ (IsApproval X cfg.encoder) msgs approvals

end Amp.Prover
