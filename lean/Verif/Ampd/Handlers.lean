import Verif.Ampd.Events
import Verif.Std.Model
import Verif.Encoding.Abi
import Verif.Encoding.Bcs
import Verif.Router.Types

/-!
# The verifiers and event handlers of the daemon (`ampd/src/evm`, `ampd/src/sui`, `ampd/src/handlers`)

The replies of the nodes of other chains are parameters, as are the decoding of event attributes, of EVM
logs and of Sui event contents, and the iteration order of hash sets.
-/

namespace Amp.Ampd

open Amp.Std (Vote)
open Amp.Encoding (Bytes)
open Amp.Router (ChainName Lowering)

/-- `events/src/event.rs:16-19` (`Event::Abci`): the type of an event and its attributes -/
structure Abci (V : Type) where
  type : Str
  attributes : V
  deriving DecidableEq

/-- result of `events-derive/src/lib.rs:49-62` (`TryFrom<&Event>`) -/
inductive Decoded (E : Type)
  | mismatch
  | malformed
  | ok (e : E)

/-- `events-derive/src/lib.rs:49-62`; `deser` is the deserialization of the attributes -/
def tryFrom {V E : Type} (name : Str) (deser : V → Option E) : Event (Abci V) → Decoded E
  | .abci a =>
    if a.type = name then
      match deser a.attributes with
      | none => .malformed
      | some e => .ok e
    else .mismatch
  | .blockBegin _ => .mismatch
  | .blockEnd _ => .mismatch

/-- messages put into a transaction: `ExecuteMsg::Vote` of the voting verifier, `SubmitSignature` of the
multisig contract -/
inductive TxMsg
  | vote (pollId : Nat) (votes : List Vote)
  | submitSignature (sessionId : Nat) (signature : Bytes)
  deriving DecidableEq, Repr

/-- `MsgExecuteContract` as built by the handlers, without funds -/
structure ExecTx where
  sender : Addr
  contract : Addr
  msg : TxMsg
  deriving DecidableEq, Repr

/-- `handlers/errors.rs`, and panics -/
inductive HandlerErr
  | deserializeEvent
  | finalizer
  | txReceipts
  | broadcaster
  | sign
  | panic
  deriving DecidableEq, Repr

/-- what a handler did with an event: the transactions passed to the broadcaster and the result -/
structure Outcome where
  sent : List ExecTx
  result : Except HandlerErr Unit

/-- `return Ok(())` -/
def Outcome.ignored : Outcome := ⟨[], .ok ()⟩

/-- an error before anything is sent -/
def Outcome.failed (e : HandlerErr) : Outcome := ⟨[], .error e⟩

/-- `broadcast_votes`, `broadcast_vote`, `broadcast_signature` (`evm_verify_msg.rs:128-142` etc.):
`accepted` tells whether the queue takes the transaction -/
def broadcastTx (accepted : Bool) (t : ExecTx) : Outcome :=
  ⟨[t], if accepted then .ok () else .error .broadcaster⟩

/-- `HashMap::from_iter` of pairs: the last pair with a key wins -/
def lastWith {K V : Type} [DecidableEq K] (k : K) : List (K × V) → Option V
  | [] => none
  | (k', v) :: t =>
    match lastWith k t with
    | some w => some w
    | none => if k' = k then some v else none

/-! ## EVM -/

namespace Evm

/-- `evm/mod.rs:13-17` (`ChainName`) -/
inductive Chain
  | ethereum
  | other (name : Str)
  deriving DecidableEq, Repr

/-- `Display for ChainName` (derived) -/
def Chain.show : Chain → Str
  | .ethereum => "Ethereum".toList
  | .other n => n

/-- `str::eq_ignore_ascii_case` -/
def eqIgnoreAsciiCase (a b : Str) : Bool := a.map Char.toLower = b.map Char.toLower

/-- `evm/mod.rs:19-23` (`PartialEq<connection_router::state::ChainName>`) -/
def Chain.is (c : Chain) (n : ChainName) : Bool := eqIgnoreAsciiCase c.show n

/-- the parts of `ethers::types::Log` in use; topics and data are only decoded as a whole -/
structure Log (D : Type) where
  address : Bytes
  content : D
  txHash : Option Bytes
  index : Option Nat

/-- the parts of `ethers::types::TransactionReceipt` in use -/
structure Receipt (D : Type) where
  txHash : Bytes
  blockNumber : Option Nat
  logs : List (Log D)

/-- `IAxelarGatewayEvents` (generated from `evm/abi/IAxelarGateway.json`): the two events that are looked
at, and all others -/
inductive GatewayEvent
  | contractCall (sender : Bytes) (destinationChain destinationAddress : Str) (payloadHash : Bytes)
  | operatorshipTransferred (newOperatorsData : Bytes)
  | other
  deriving DecidableEq, Repr

/-- replies of the node during the handling of one event; `none` is an error.  `decodeLog` is
`IAxelarGatewayEvents::decode_log` (`none`: not an event of the gateway). -/
structure Node (D : Type) where
  /-- `eth_getBlockByNumber("finalized")`: the number of the block, which may be missing -/
  finalizedBlock : Option (Option Nat)
  /-- `eth_blockNumber` -/
  blockNumber : Option Nat
  /-- `eth_getTransactionReceipt` -/
  receipt : Bytes → Option (Option (Receipt D))

/-- `evm_verify_msg.rs:31-39` (`Message`) -/
structure Message where
  txId : Bytes
  eventIndex : Nat
  destinationAddress : Str
  destinationChain : ChainName
  sourceAddress : Bytes
  payloadHash : Bytes
  deriving DecidableEq, Repr

/-- `evm_verify_worker_set.rs:28-39` (`Operators`, `WorkerSetConfirmation`) -/
structure WorkerSet where
  txId : Bytes
  eventIndex : Nat
  operators : List (Bytes × Nat)
  threshold : Nat
  deriving DecidableEq, Repr

/-- `evm_verify_msg.rs:41-53` and `evm_verify_worker_set.rs:41-53` (`PollStartedEvent`) -/
structure PollStarted (α : Type) where
  contract : Addr
  pollId : Nat
  sourceChain : ChainName
  sourceGateway : Bytes
  confirmationHeight : Nat
  expiresAt : Nat
  content : α
  participants : List Addr

/-- `evm/verifier.rs:65-81` (`get_event`) -/
def getEvent {D : Type} (decodeLog : D → Option GatewayEvent) (gateway : Bytes) (r : Receipt D)
    (index : Nat) : Option (Log D × GatewayEvent) :=
  match r.logs.find? (fun l => l.index = some index) with
  | none => none
  | some l =>
    if l.address = gateway then
      match decodeLog l.content with
      | none => none
      | some e => some (l, e)
    else none

/-- `evm/verifier.rs:15-31` (`PartialEq<&Message>`) -/
def eventIsMessage {D : Type} (L : Lowering) (l : Log D) (e : GatewayEvent) (m : Message) : Bool :=
  match e with
  | .contractCall sender chain addr hash =>
    l.txHash = some m.txId && l.index = some m.eventIndex && sender = m.sourceAddress &&
      m.destinationChain = L.f chain && addr = m.destinationAddress && hash = m.payloadHash
  | .operatorshipTransferred _ => false
  | .other => false

/-- `evm/verifier.rs:39-49, 54-58`: the operators as ABI tokens, encoded -/
def operatorsData (w : WorkerSet) : Except Encoding.Err Bytes :=
  Encoding.Abi.ethabiEncode [
    .array (w.operators.map (fun o => .address o.1)),
    .array (w.operators.map (fun o => .uint o.2)),
    .elem (.uint w.threshold)]

/-- `evm/verifier.rs:33-63` (`PartialEq<&WorkerSetConfirmation>`); the encoding is only done if the hash and
the index are right, and panics on overlong data -/
def eventIsWorkerSet {D : Type} (l : Log D) (e : GatewayEvent) (w : WorkerSet) : Except HandlerErr Bool :=
  match e with
  | .operatorshipTransferred data =>
    if l.txHash = some w.txId && l.index = some w.eventIndex then
      match operatorsData w with
      | .error _ => .error .panic
      | .ok b => .ok (data = b)
    else .ok false
  | .contractCall _ _ _ _ => .ok false
  | .other => .ok false

/-- `evm/verifier.rs:83-94` (`verify_message`) -/
def verifyMessage {D : Type} (L : Lowering) (decodeLog : D → Option GatewayEvent) (gateway : Bytes)
    (r : Receipt D) (m : Message) : Vote :=
  match getEvent decodeLog gateway r m.eventIndex with
  | none => .notFound
  | some (l, e) =>
    if r.txHash = m.txId && eventIsMessage L l e m then .succeededOnChain else .notFound

/-- `evm/verifier.rs:96-107` (`verify_worker_set`) -/
def verifyWorkerSet {D : Type} (decodeLog : D → Option GatewayEvent) (gateway : Bytes)
    (r : Receipt D) (w : WorkerSet) : Except HandlerErr Vote :=
  match getEvent decodeLog gateway r w.eventIndex with
  | none => .ok .notFound
  | some (l, e) =>
    if r.txHash = w.txId then
      match eventIsWorkerSet l e w with
      | .error x => .error x
      | .ok true => .ok .succeededOnChain
      | .ok false => .ok .notFound
    else .ok .notFound

/-- `evm/finalizer.rs:38-45` (`EthereumFinalizer`) -/
def ethereumHeight {D : Type} (n : Node D) : Except HandlerErr Nat :=
  match n.finalizedBlock with
  | none => .error .finalizer
  | some none => .error .finalizer
  | some (some h) => .ok h

/-- `evm/finalizer.rs:76-84` (`PoWFinalizer`): subtraction and addition of `U64` panic on overflow -/
def powHeight {D : Type} (n : Node D) (confirmationHeight : Nat) : Except HandlerErr Nat :=
  match n.blockNumber with
  | none => .error .finalizer
  | some b =>
    if b < confirmationHeight then .error .panic
    else if b - confirmationHeight + 1 > u64Max then .error .panic
    else .ok (b - confirmationHeight + 1)

/-- `evm/mod.rs:26-42` (`finalizer`) and `latest_finalized_block_height` -/
def finalizedHeight {D : Type} (c : Chain) (n : Node D) (confirmationHeight : Nat) :
    Except HandlerErr Nat :=
  match c with
  | .ethereum => ethereumHeight n
  | .other _ => powHeight n confirmationHeight

/-- `evm_verify_msg.rs:115-119`, `evm_verify_worker_set.rs:109-113`: a receipt without block number counts as
being in block `U64::MAX` -/
def isFinal {D : Type} (height : Nat) (r : Receipt D) : Bool :=
  match r.blockNumber with
  | none => u64Max ≤ height
  | some b => b ≤ height

/-- one lookup in `evm_verify_msg.rs:106-124`: errors count as missing; the receipt is filed under the hash
it states -/
def finalReceipt {D : Type} (n : Node D) (height : Nat) (h : Bytes) : Option (Bytes × Receipt D) :=
  match n.receipt h with
  | none => none
  | some none => none
  | some (some r) => if isFinal height r then some (r.txHash, r) else none

/-- `evm_verify_msg.rs:91-126` (`finalized_tx_receipts`) for the hashes in the order of iteration -/
def finalizedReceipts {D : Type} (c : Chain) (n : Node D) (hashes : List Bytes) (confirmationHeight : Nat) :
    Except HandlerErr (List (Bytes × Receipt D)) :=
  match finalizedHeight c n confirmationHeight with
  | .error e => .error e
  | .ok height => .ok (hashes.filterMap (finalReceipt n height))

/-- `evm_verify_msg.rs:55-66`, `evm_verify_worker_set.rs:55-66` (`Handler`) -/
structure Handler where
  worker : Addr
  votingVerifier : Addr
  chain : Chain

/-- what else a handler gets to see while it handles an event: the latest block height, the node, whether the
broadcast queue accepts the transaction, and the order in which a set of hashes is iterated over -/
structure Env (D : Type) where
  latestBlock : Nat
  node : Node D
  accepted : Bool
  order : List Bytes → List Bytes

/-- `evm_verify_msg.rs:213-222`: the vote for one message -/
def voteFor {D : Type} (L : Lowering) (decodeLog : D → Option GatewayEvent) (gateway : Bytes)
    (receipts : List (Bytes × Receipt D)) (m : Message) : Vote :=
  match lastWith m.txId receipts with
  | none => .notFound
  | some r => verifyMessage L decodeLog gateway r m

/-- `evm_verify_msg.rs:153-232` (`handle`) -/
def handleMessages {V D : Type} (L : Lowering) (decodeLog : D → Option GatewayEvent)
    (deser : V → Option (PollStarted (List Message))) (H : Handler) (E : Env D) (e : Event (Abci V)) :
    Outcome :=
  match tryFrom "wasm-messages_poll_started".toList deser e with
  | .mismatch => .ignored
  | .malformed => .failed .deserializeEvent
  | .ok p =>
    if H.votingVerifier ≠ p.contract then .ignored
    else if !H.chain.is p.sourceChain then .ignored
    else if H.worker ∉ p.participants then .ignored
    else if E.latestBlock ≥ p.expiresAt then .ignored
    else
      match finalizedReceipts H.chain E.node (E.order (p.content.map Message.txId))
          p.confirmationHeight with
      | .error x => .failed x
      | .ok receipts =>
        broadcastTx E.accepted ⟨H.worker, H.votingVerifier,
          .vote p.pollId (p.content.map (voteFor L decodeLog p.sourceGateway receipts))⟩

/-- `evm_verify_worker_set.rs:91-119` (`finalized_tx_receipt`) -/
def finalizedReceipt {D : Type} (c : Chain) (n : Node D) (h : Bytes) (confirmationHeight : Nat) :
    Except HandlerErr (Option (Receipt D)) :=
  match finalizedHeight c n confirmationHeight with
  | .error e => .error e
  | .ok height =>
    match n.receipt h with
    | none => .error .finalizer
    | some none => .ok none
    | some (some r) => .ok (if isFinal height r then some r else none)

/-- `evm_verify_worker_set.rs:199-201` -/
def workerSetVote {D : Type} (decodeLog : D → Option GatewayEvent) (gateway : Bytes)
    (r : Option (Receipt D)) (w : WorkerSet) : Except HandlerErr Vote :=
  match r with
  | none => .ok .notFound
  | some r => verifyWorkerSet decodeLog gateway r w

/-- `evm_verify_worker_set.rs:149-211` (`handle`) -/
def handleWorkerSet {V D : Type} (decodeLog : D → Option GatewayEvent)
    (deser : V → Option (PollStarted WorkerSet)) (H : Handler) (E : Env D) (e : Event (Abci V)) : Outcome :=
  match tryFrom "wasm-worker_set_poll_started".toList deser e with
  | .mismatch => .ignored
  | .malformed => .failed .deserializeEvent
  | .ok p =>
    if H.votingVerifier ≠ p.contract then .ignored
    else if !H.chain.is p.sourceChain then .ignored
    else if H.worker ∉ p.participants then .ignored
    else if E.latestBlock ≥ p.expiresAt then .ignored
    else
      match finalizedReceipt H.chain E.node p.content.txId p.confirmationHeight with
      | .error x => .failed x
      | .ok r =>
        match workerSetVote decodeLog p.sourceGateway r p.content with
        | .error x => .failed x
        | .ok v => broadcastTx E.accepted ⟨H.worker, H.votingVerifier, .vote p.pollId [v]⟩

end Evm

/-! ## Sui -/

namespace Sui

/-- `move_core_types::language_storage::StructTag` as far as in use: address, module, name (the type
parameters of the tags built here are empty, and so must be those of a matching event) -/
structure StructTag where
  address : Bytes
  module : Str
  name : Str
  typeParams : List Str
  deriving DecidableEq, Repr

/-- `sui/verifier.rs:25-28` -/
inductive EventType
  | contractCall
  | operatorshipTransferred

/-- `sui/verifier.rs:32-46` (`struct_tag`); printing and parsing the tag gives it back -/
def EventType.structTag (t : EventType) (gateway : Bytes) : StructTag :=
  match t with
  | .contractCall => ⟨gateway, "gateway".toList, "ContractCall".toList, []⟩
  | .operatorshipTransferred => ⟨gateway, "validators".toList, "OperatorshipTransferred".toList, []⟩

/-- `sui/verifier.rs:12-18` (`ContractCall`) -/
structure ContractCall where
  sourceId : Bytes
  destinationChain : Str
  destinationAddress : Str
  payloadHash : Bytes
  deriving DecidableEq, Repr

/-- the parts of `SuiEvent` in use -/
structure SuiEvent (J : Type) where
  seq : Nat
  type : StructTag
  json : J

/-- the parts of `SuiTransactionBlockResponse` in use -/
structure TxBlock (J : Type) where
  digest : Bytes
  checkpoint : Option Nat
  events : Option (List (SuiEvent J))

/-- `serde_json::from_value` for the two event contents (`sui/verifier.rs:12-23`) -/
structure Json (J : Type) where
  contractCall : J → Option ContractCall
  operatorship : J → Option Bytes

/-- `sui_verify_msg.rs:25-33` (`Message`) -/
structure Message where
  txId : Bytes
  eventIndex : Nat
  destinationAddress : Str
  destinationChain : ChainName
  sourceAddress : Bytes
  payloadHash : Bytes
  deriving DecidableEq, Repr

/-- `sui_verify_worker_set.rs:27-38` (`Operators`, `WorkerSetConfirmation`) -/
structure WorkerSet where
  txId : Bytes
  eventIndex : Nat
  operators : List (Bytes × Nat)
  threshold : Nat
  deriving DecidableEq, Repr

/-- `sui_verify_msg.rs:35-45`, `sui_verify_worker_set.rs:40-50` (`PollStartedEvent`) -/
structure PollStarted (α : Type) where
  contract : Addr
  pollId : Nat
  sourceGateway : Bytes
  content : α
  participants : List Addr
  expiresAt : Nat

/-- `sui/verifier.rs:85-95` (`find_event`) -/
def findEvent {J : Type} (b : TxBlock J) (seq : Nat) : Option (SuiEvent J) :=
  (flatOpt b.events).find? (fun e => e.seq = seq)

/-- `sui/verifier.rs:49-61` (`PartialEq<&Message>`) -/
def eventIsMessage {J : Type} (L : Lowering) (P : Json J) (e : SuiEvent J) (m : Message) : Bool :=
  match P.contractCall e.json with
  | none => false
  | some c =>
    c.sourceId = m.sourceAddress && m.destinationChain = L.f c.destinationChain &&
      c.destinationAddress = m.destinationAddress && c.payloadHash = m.payloadHash

/-- `sui/verifier.rs:67-77`: BCS of operators, weights and threshold -/
def operatorsData (w : WorkerSet) : Except Encoding.Err Bytes :=
  Encoding.Bcs.cat [
    Encoding.Bcs.seqB (w.operators.map (fun o => Encoding.Bcs.bytesB o.1)),
    Encoding.Bcs.seqB (w.operators.map (fun o => .ok (Encoding.Bcs.u128B o.2))),
    .ok (Encoding.Bcs.u128B w.threshold)]

/-- `sui/verifier.rs:63-83` (`PartialEq<&WorkerSetConfirmation>`); a failing serialization panics -/
def eventIsWorkerSet {J : Type} (P : Json J) (e : SuiEvent J) (w : WorkerSet) : Except HandlerErr Bool :=
  match P.operatorship e.json with
  | none => .ok false
  | some payload =>
    match operatorsData w with
    | .error _ => .error .panic
    | .ok b => .ok (payload = b)

/-- `sui/verifier.rs:97-112` (`verify_message`) -/
def verifyMessage {J : Type} (L : Lowering) (P : Json J) (gateway : Bytes) (b : TxBlock J) (m : Message) :
    Vote :=
  match findEvent b m.eventIndex with
  | none => .notFound
  | some e =>
    if b.digest = m.txId && e.type = EventType.contractCall.structTag gateway && eventIsMessage L P e m then
      .succeededOnChain
    else .notFound

/-- `sui/verifier.rs:114-130` (`verify_worker_set`) -/
def verifyWorkerSet {J : Type} (P : Json J) (gateway : Bytes) (b : TxBlock J) (w : WorkerSet) :
    Except HandlerErr Vote :=
  match findEvent b w.eventIndex with
  | none => .ok .notFound
  | some e =>
    if b.digest = w.txId && e.type = EventType.operatorshipTransferred.structTag gateway then
      match eventIsWorkerSet P e w with
      | .error x => .error x
      | .ok true => .ok .succeededOnChain
      | .ok false => .ok .notFound
    else .ok .notFound

/-- replies of the Sui node while one event is handled; `none` is an error -/
structure Node (J : Type) where
  /-- `sui_getTransactionBlock` -/
  getBlock : Bytes → Option (TxBlock J)
  /-- `sui_multiGetTransactionBlocks` -/
  multiGet : List Bytes → Option (List (TxBlock J))

/-- `sui/json_rpc.rs:31-45` (`finalized_transaction_block`) -/
def finalizedBlock {J : Type} (n : Node J) (digest : Bytes) : Option (Option (TxBlock J)) :=
  match n.getBlock digest with
  | none => none
  | some b =>
    match b.checkpoint with
    | none => some none
    | some _ => some (some b)

/-- `sui/json_rpc.rs:47-69` (`finalized_transaction_blocks`): filed under the digest they state -/
def finalizedBlocks {J : Type} (n : Node J) (digests : List Bytes) : Option (List (Bytes × TxBlock J)) :=
  match n.multiGet digests with
  | none => none
  | some bs => some ((bs.filter (fun b => b.checkpoint.isSome)).map (fun b => (b.digest, b)))

/-- `sui_verify_msg.rs:47-57`, `sui_verify_worker_set.rs:52-62` (`Handler`) -/
structure Handler where
  worker : Addr
  votingVerifier : Addr

/-- what else a handler gets to see while it handles an event -/
structure Env (J : Type) where
  latestBlock : Nat
  node : Node J
  accepted : Bool
  order : List Bytes → List Bytes

/-- `sui_verify_msg.rs:143-152`: the vote for one message -/
def voteFor {J : Type} (L : Lowering) (P : Json J) (gateway : Bytes) (blocks : List (Bytes × TxBlock J))
    (m : Message) : Vote :=
  match lastWith m.txId blocks with
  | none => .notFound
  | some b => verifyMessage L P gateway b m

/-- `sui_verify_msg.rs:104-155` (`handle`) -/
def handleMessages {V J : Type} (L : Lowering) (P : Json J)
    (deser : V → Option (PollStarted (List Message))) (H : Handler) (E : Env J) (e : Event (Abci V)) :
    Outcome :=
  match tryFrom "wasm-messages_poll_started".toList deser e with
  | .mismatch => .ignored
  | .malformed => .failed .deserializeEvent
  | .ok p =>
    if H.votingVerifier ≠ p.contract then .ignored
    else if H.worker ∉ p.participants then .ignored
    else if E.latestBlock ≥ p.expiresAt then .ignored
    else
      match finalizedBlocks E.node (E.order (p.content.map Message.txId)) with
      | none => .failed .txReceipts
      | some blocks =>
        broadcastTx E.accepted ⟨H.worker, H.votingVerifier,
          .vote p.pollId (p.content.map (voteFor L P p.sourceGateway blocks))⟩

/-- `sui_verify_worker_set.rs:157-159` -/
def workerSetVote {J : Type} (P : Json J) (gateway : Bytes) (b : Option (TxBlock J)) (w : WorkerSet) :
    Except HandlerErr Vote :=
  match b with
  | none => .ok .notFound
  | some b => verifyWorkerSet P gateway b w

/-- `sui_verify_worker_set.rs:112-170` (`handle`) -/
def handleWorkerSet {V J : Type} (P : Json J) (deser : V → Option (PollStarted WorkerSet)) (H : Handler)
    (E : Env J) (e : Event (Abci V)) : Outcome :=
  match tryFrom "wasm-worker_set_poll_started".toList deser e with
  | .mismatch => .ignored
  | .malformed => .failed .deserializeEvent
  | .ok p =>
    if H.votingVerifier ≠ p.contract then .ignored
    else if H.worker ∉ p.participants then .ignored
    else if E.latestBlock ≥ p.expiresAt then .ignored
    else
      match finalizedBlock E.node p.content.txId with
      | none => .failed .txReceipts
      | some b =>
        match workerSetVote P p.sourceGateway b p.content with
        | .error x => .failed x
        | .ok v => broadcastTx E.accepted ⟨H.worker, H.votingVerifier, .vote p.pollId [v]⟩

end Sui

/-! ## Signing -/

namespace Signing

/-- `handlers/multisig.rs:27-37` (`SigningStartedEvent`); keys are a `HashMap` -/
structure SigningStarted where
  contract : Addr
  sessionId : Nat
  pubKeys : List (Addr × Bytes)
  msg : Bytes

/-- `handlers/multisig.rs:69-77` (`Handler`) -/
structure Handler where
  worker : Addr
  multisig : Addr

/-- what else the handler gets to see: the key manager's answer to a request to sign a digest with a key
(under the key id given by the multisig address), and whether the broadcast queue accepts the transaction -/
structure Env where
  sign : Addr → Bytes → Bytes → Option Bytes
  accepted : Bool

/-- `handlers/multisig.rs:129-171` (`handle`) -/
def handle {V : Type} (deser : V → Option SigningStarted) (H : Handler) (E : Env) (e : Event (Abci V)) :
    Outcome :=
  match tryFrom "wasm-signing_started".toList deser e with
  | .mismatch => .ignored
  | .malformed => .failed .deserializeEvent
  | .ok s =>
    if H.multisig ≠ s.contract then .ignored
    else
      match lastWith H.worker s.pubKeys with
      | none => .ignored
      | some key =>
        match E.sign H.multisig s.msg key with
        | none => .failed .sign
        | some sig => broadcastTx E.accepted ⟨H.worker, H.multisig, .submitSignature s.sessionId sig⟩

end Signing

end Amp.Ampd
