import Verif.Encoding.Abi
import Verif.Encoding.Bcs
import Verif.Registry.State
import Verif.Std.Model

/-!
# The multisig prover (`contracts/multisig-prover/src`)

Answers of other contracts to queries are functions in the environment of a call (`Env`), so that nothing
is assumed about those contracts. The message to the multisig contract is sent as a submessage in the same
transaction; its outcome is part of the call. `Verif/Prover/System.lean` connects the model of the multisig
contract.
-/

namespace Amp.Prover

open Amp.Encoding
open Amp.Multisig (Signature PublicKey Signer WorkerSet KeyType)
open Amp.Router (CCId Message ChainName)
open Amp.Registry (Worker)

/-- `state.rs:12-26` (`Config`); the service name and the key type only occur in queries, the admin nowhere -/
structure Config where
  gateway : Addr
  multisig : Addr
  serviceRegistry : Addr
  votingVerifier : Addr
  destinationChainId : Nat
  signingThreshold : Std.MajorityThreshold
  chainName : ChainName
  diffThreshold : Nat
  encoder : Encoder
  deriving DecidableEq, Repr

/-- `types.rs:87-93` (`CommandBatch`) -/
structure Batch where
  id : Bytes
  messageIds : List CCId
  data : Data
  encoder : Encoder
  deriving DecidableEq, Repr

/-- Storage (`state.rs:28-36`) -/
structure State where
  config : Config
  batches : KV Bytes Batch
  sessionBatch : KV Nat Bytes
  replyBatch : Option Bytes
  current : Option WorkerSet
  next : Option WorkerSet

/-- `contract.rs:22-54` (`instantiate`) -/
def init (cfg : Config) : State := ⟨cfg, KV.empty, KV.empty, none, none, none⟩

/-- `msg.rs` (`ExecuteMsg`) -/
inductive Msg
  | constructProof (ids : List CCId)
  | updateWorkerSet
  | confirmWorkerSet
  deriving DecidableEq, Repr

/-- what a call sees of its surroundings: the block height and the answers of the other contracts: of the
gateway to `GetMessages`, of the service registry to `GetActiveWorkers`, of the multisig contract to
`GetPublicKey`, of the voting verifier to `IsWorkerSetVerified` -/
structure Env where
  height : Nat
  gateway : List CCId → Except Err (List Message)
  activeWorkers : Except Err (List Worker)
  publicKey : Addr → Except Err PublicKey
  verified : Std.Operators → Except Err Bool

/-- the message sent to the multisig contract -/
inductive Out
  | startSigning (workerSetId : Str) (msg : Bytes) (chain : ChainName)
  | registerWorkerSet (ws : WorkerSet)
  deriving DecidableEq, Repr

/-! ### Batches -/

/-- `Vec<String>::join(",")` -/
def joinComma : List Str → Str
  | [] => []
  | [x] => x
  | x :: y :: t => x ++ ',' :: joinComma (y :: t)

/-- `String` order: by code points, which is the order of the UTF-8 bytes -/
def strLe (a b : Str) : Bool := decide (a ≤ b)

/-- `types.rs:73-82`: the sorted ids and the hash of the worker set, in one text -/
def batchText (X : Ext) (ids : List CCId) (ws : Option WorkerSet) : Str :=
  joinComma (sortBy strLe (ids.map CCId.show) ++
    match ws with
    | none => []
    | some ws => [encodeHex (X.wsHash ws)])

/-- `types.rs:72-85` (`BatchId::new`) -/
def batchId (X : Ext) (ids : List CCId) (ws : Option WorkerSet) : Bytes :=
  X.keccak (utf8Bytes (batchText X ids ws))

/-- `encoding/mod.rs:24-43, 144-147` (`make_command`, `command_id`) -/
def makeCommand (X : Ext) (enc : Encoder) (m : Message) : Except Err Command :=
  match (match enc with
    | .abi => Abi.commandParams X m.ccId.chain m.sourceAddress m.destinationAddress m.payloadHash
    | .bcs => Bcs.commandParams m.ccId.chain m.sourceAddress m.destinationAddress m.payloadHash) with
  | .error e => .error e
  | .ok params => .ok ⟨X.keccak (utf8Bytes m.ccId.show), .approveContractCall, params⟩

/-- `encoding/mod.rs:45-58` (`make_transfer_operatorship`) -/
def makeTransfer (X : Ext) (enc : Encoder) (ws : WorkerSet) : Except Err Command :=
  match (match enc with
    | .abi => Abi.transferOperatorshipParams X ws
    | .bcs => Bcs.transferOperatorshipParams ws) with
  | .error e => .error e
  | .ok params => .ok ⟨X.wsHash ws, .transferOperatorship, params⟩

/-- `encoding/mod.rs:60-107` (`CommandBatchBuilder`): add the worker set, if any, then the messages -/
def buildBatch (X : Ext) (cfg : Config) (ws : Option WorkerSet) (msgs : List Message) :
    Except Err Batch :=
  match (match ws with
    | none => Except.ok []
    | some ws =>
      match makeTransfer X cfg.encoder ws with
      | .error e => .error e
      | .ok c => .ok [c]) with
  | .error e => .error e
  | .ok transfer =>
    match mapE (makeCommand X cfg.encoder) msgs with
    | .error e => .error e
    | .ok cs =>
      let ids := msgs.map (·.ccId)
      .ok ⟨batchId X ids ws, ids, ⟨cfg.destinationChainId, transfer ++ cs⟩, cfg.encoder⟩

/-- `encoding/mod.rs:110-115` (`msg_digest`) -/
def Batch.digest (X : Ext) (b : Batch) : Except Err Bytes :=
  match b.encoder with
  | .abi => Abi.msgDigest X b.data
  | .bcs => Bcs.msgDigest X b.data

/-- `encoding/mod.rs:117-126` (`encode_execute_data`) -/
def Batch.executeData (X : Ext) (b : Batch) (quorum : Nat) (signers : List (Signer × Option Signature)) :
    Except Err Bytes :=
  match b.encoder with
  | .abi => Abi.encodeExecuteData X b.data quorum signers
  | .bcs => Bcs.encodeExecuteData X b.data quorum signers

/-- `encoding/mod.rs:149-154` (`make_operators`) -/
def makeOperators (X : Ext) (enc : Encoder) (ws : WorkerSet) : Except Err Std.Operators :=
  match enc with
  | .abi => Abi.makeOperators X ws
  | .bcs => .ok (Bcs.makeOperators ws)

/-! ### Worker sets -/

/-- `multisig/src/worker_set.rs:55-57` (`id`) -/
def workerSetId (X : Ext) (ws : WorkerSet) : Str := encodeHex (X.wsHash ws)

/-- `multisig/src/worker_set.rs:23-47` (`WorkerSet::new`) -/
def newWorkerSet (ps : List ((Addr × Nat) × PublicKey)) (threshold height : Nat) : WorkerSet :=
  ⟨OMap.ofList (ps.map (fun p => (p.1.1, ⟨p.1.1, p.1.2, p.2⟩))), threshold, height⟩

/-- `execute.rs:113-117` (`Worker::try_into`, an error of the service registry's types) -/
def participantOf (w : Worker) : Except Err (Addr × Nat) :=
  match w.toParticipant with
  | none => .error .serviceRegistry
  | some p => .ok p

/-- `execute.rs:102-148` (`get_workers_info`, `make_worker_set`) -/
def makeWorkerSet (cfg : Config) (env : Env) : Except Err WorkerSet :=
  match env.activeWorkers with
  | .error e => .error e
  | .ok workers =>
    match mapE participantOf workers with
    | .error e => .error e
    | .ok participants =>
      match Std.Snapshot.new cfg.signingThreshold participants with
      | .error .emptyParticipants => .error .nonEmpty
      | .error _ => .error .panic
      | .ok snapshot =>
        match mapE (fun w : Worker => env.publicKey w.address) workers with
        | .error e => .error e
        | .ok keys => .ok (newWorkerSet (participants.zip keys) snapshot.quorum env.height)

/-- `execute.rs:260-286` (`should_update_worker_set`) -/
def shouldUpdate (new cur : WorkerSet) (maxDiff : Nat) : Bool :=
  let ns := new.signers.map Prod.snd
  let cs := cur.signers.map Prod.snd
  decide ((ns.filter (fun x => ! cs.contains x)).length + (cs.filter (fun x => ! ns.contains x)).length
    > maxDiff)

/-- `execute.rs:150-172` (`get_next_worker_set`) -/
def nextWorkerSet (s : State) (env : Env) : Except Err (Option WorkerSet) :=
  match makeWorkerSet s.config env with
  | .error e => .error e
  | .ok new =>
    match s.current with
    | none => .error .noWorkerSet
    | some cur => .ok (if shouldUpdate new cur s.config.diffThreshold then some new else none)

/-- `execute.rs:288-298` (`different_set_in_progress`) -/
def differentSetInProgress (s : State) (new : WorkerSet) : Bool :=
  match s.next with
  | none => false
  | some n => decide (n.signers ≠ new.signers ∨ n.threshold ≠ new.threshold)

/-- `execute.rs:174-183` (`save_next_worker_set`) -/
def saveNext (s : State) (new : WorkerSet) : Except Err State :=
  if differentSetInProgress s new then .error .workerSetConfirmationInProgress
  else .ok { s with next := some new }

/-! ### Handlers -/

/-- `execute.rs:73-100` (`get_messages`) -/
def getMessages (s : State) (env : Env) (ids : List CCId) : Except Err (List Message) :=
  match env.gateway ids with
  | .error e => .error e
  | .ok msgs =>
    if msgs.length ≠ ids.length then .error .panic
    else if msgs.any (fun m => m.destinationChain ≠ s.config.chainName) then .error .panic
    else .ok msgs

/-- `execute.rs:37-54`: build and store the batch, with a rotation if one is due -/
def newBatch (X : Ext) (s : State) (env : Env) (msgs : List Message) : Except Err (State × Batch) :=
  match nextWorkerSet s env with
  | .error e => .error e
  | .ok ws =>
    match (match ws with
      | none => Except.ok s
      | some ws => saveNext s ws) with
    | .error e => .error e
    | .ok s1 =>
      match buildBatch X s.config ws msgs with
      | .error e => .error e
      | .ok b => .ok ({ s1 with batches := s1.batches.set b.id b }, b)

/-- `execute.rs:20-71` (`construct_proof`) -/
def constructProof (X : Ext) (s : State) (env : Env) (ids : List CCId) : Except Err (State × Out) :=
  match getMessages s env ids with
  | .error e => .error e
  | .ok msgs =>
    match (match s.batches (batchId X ids none) with
      | some b => Except.ok (s, b)
      | none => newBatch X s env msgs) with
    | .error e => .error e
    | .ok (s1, b) =>
      match s1.current with
      | none => .error .std
      | some cur =>
        match b.digest X with
        | .error e => .error e
        | .ok digest =>
          .ok ({ s1 with replyBatch := some b.id },
            .startSigning (workerSetId X cur) digest s.config.chainName)

/-- `execute.rs:185-230` (`update_worker_set`) -/
def updateWorkerSet (X : Ext) (s : State) (env : Env) : Except Err (State × Out) :=
  match s.current with
  | none =>
    match makeWorkerSet s.config env with
    | .error e => .error e
    | .ok new => .ok ({ s with current := some new }, .registerWorkerSet new)
  | some cur =>
    match nextWorkerSet s env with
    | .error e => .error e
    | .ok none => .error .workerSetUnchanged
    | .ok (some new) =>
      match saveNext s new with
      | .error e => .error e
      | .ok s1 =>
        match buildBatch X s.config (some new) [] with
        | .error e => .error e
        | .ok b =>
          match b.digest X with
          | .error e => .error e
          | .ok digest =>
            .ok ({ s1 with batches := s1.batches.set b.id b, replyBatch := some b.id },
              .startSigning (workerSetId X cur) digest s.config.chainName)

/-- `execute.rs:232-258` (`confirm_worker_set`) -/
def confirmWorkerSet (X : Ext) (s : State) (env : Env) : Except Err (State × Out) :=
  match s.next with
  | none => .error .std
  | some ws =>
    match makeOperators X s.config.encoder ws with
    | .error e => .error e
    | .ok ops =>
      match env.verified ops with
      | .error e => .error e
      | .ok false => .error .workerSetNotConfirmed
      | .ok true => .ok ({ s with current := some ws, next := none }, .registerWorkerSet ws)

/-- `contract.rs:56-71` (`execute`): nobody's permission is needed -/
def handle (X : Ext) (s : State) (env : Env) : Msg → Except Err (State × Out)
  | .constructProof ids => constructProof X s env ids
  | .updateWorkerSet => updateWorkerSet X s env
  | .confirmWorkerSet => confirmWorkerSet X s env

/-- `reply.rs:10-41` (`start_multisig_reply`), with the data of the multisig contract's response -/
def reply (s : State) : Option Nat → Except Err (State × Nat × Bytes)
  | none => .error .invalidContractReply
  | some sid =>
    match s.replyBatch with
    | none => .error .std
    | some b => .ok ({ s with sessionBatch := s.sessionBatch.set sid b }, sid, b)

/-! ### Transactions -/

/-- a call of `execute`: the message, what it sees, and what the multisig contract does with the message it
is sent (`none`: it fails; `some d`: it succeeds with response data `d`) -/
structure Call where
  msg : Msg
  env : Env
  answer : Option (Option Nat)

/-- the outcome of a transaction: the message sent, and the event `ProofUnderConstruction` (session id,
batch id) -/
structure Resp where
  out : Out
  event : Option (Nat × Bytes)
  deriving DecidableEq, Repr

/-- The whole transaction: `execute`, the message to the multisig contract, and for a signing session the
`reply` (`contract.rs:73-84`). Any failure reverts everything. -/
def exec (X : Ext) (s : State) (c : Call) : Except Err (State × Resp) :=
  match handle X s c.env c.msg with
  | .error e => .error e
  | .ok (s1, out) =>
    match c.answer with
    | none => .error .std
    | some data =>
      match out with
      | .registerWorkerSet _ => .ok (s1, ⟨out, none⟩)
      | .startSigning _ _ _ =>
        match reply s1 data with
        | .error e => .error e
        | .ok (s2, ev) => .ok (s2, ⟨out, some ev⟩)

/-! ### Queries -/

/-- `query.rs:69-80`: keep signatures as long as the quorum is not reached; the sum is a `Uint256` -/
def keepUntil (quorum : Nat) : Nat → List (Signer × Option Signature) →
    Except Err (List (Signer × Option Signature))
  | _, [] => .ok []
  | acc, (sg, sig) :: t =>
    match sig with
    | some x =>
      if acc < quorum then
        if acc + sg.weight > u256Max then .error .panic
        else
          match keepUntil quorum (acc + sg.weight) t with
          | .error e => .error e
          | .ok r => .ok ((sg, some x) :: r)
      else
        match keepUntil quorum acc t with
        | .error e => .error e
        | .ok r => .ok ((sg, none) :: r)
    | none =>
      match keepUntil quorum acc t with
      | .error e => .error e
      | .ok r => .ok ((sg, none) :: r)

/-- `query.rs:63-82` (`optimize_signers`) -/
def optimizeSigners (signers : List (Signer × Option Signature)) (quorum : Nat) :
    Except Err (List (Signer × Option Signature)) :=
  keepUntil quorum 0 (sortBy (fun a b => decide (b.1.weight ≤ a.1.weight)) signers)

/-- `msg.rs` (`ProofStatus`) -/
inductive ProofStatus
  | pending
  | completed (executeData : Bytes)
  deriving DecidableEq, Repr

/-- `msg.rs` (`GetProofResponse`), without the session id -/
structure Proof where
  messageIds : List CCId
  data : Data
  status : ProofStatus
  deriving DecidableEq, Repr

/-- `query.rs:18-57` (`get_proof`), with the answer of the multisig contract to `GetMultisig` -/
def getProof (X : Ext) (s : State) (multisig : Nat → Option Multisig.Multisig) (sid : Nat) :
    Except Err Proof :=
  match s.sessionBatch sid with
  | none => .error .std
  | some bid =>
    match s.batches bid with
    | none => .error .std
    | some b =>
      if b.encoder ≠ s.config.encoder then .error .panic
      else
        match multisig sid with
        | none => .error .std
        | some m =>
          match m.state with
          | .pending => .ok ⟨b.messageIds, b.data, .pending⟩
          | .completed _ =>
            match optimizeSigners m.signers m.quorum with
            | .error e => .error e
            | .ok signers =>
              match b.executeData X m.quorum signers with
              | .error .panic => .error .panic
              | .error _ => .error .std
              | .ok d => .ok ⟨b.messageIds, b.data, .completed d⟩

/-- `query.rs:59-61` (`get_worker_set`) -/
def getWorkerSet (s : State) : Option WorkerSet := s.current

end Amp.Prover
