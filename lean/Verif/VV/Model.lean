import Verif.Std.Model
import Verif.Std.Operators
import Verif.Registry.State

/-!
# `contracts/voting-verifier`

The hash functions are parameters (`Hashes`); the answer of the service registry to the active workers
query is part of the call.
-/

namespace Amp.VV

open Amp.Std Amp.Router Amp.Registry

/-- Hash functions used as storage keys: Keccak-256 of the message text and payload hash
(`connection-router/src/state.rs:173-184`) and `Operators::hash` (`operators.rs:24-31`). -/
structure Hashes where
  msg : Str × List Nat → Digest
  ops : Operators → Digest

/-- `state.rs:17-27` (`Config`) -/
structure Config where
  serviceRegistry : Addr
  serviceName : Str
  sourceGateway : Str
  threshold : MajorityThreshold
  blockExpiry : Nat
  confirmationHeight : Nat
  sourceChain : ChainName
  rewards : Addr
  deriving DecidableEq

/-- `state.rs:29-33` (`Poll`) -/
inductive PollKind
  | messages
  | workerSet
  deriving DecidableEq, Repr

/-- `state.rs:29-33` (`Poll`): the variant and the weighted poll inside. -/
structure StoredPoll where
  kind : PollKind
  poll : Poll
  deriving DecidableEq

/-- `state.rs:48-53` (`PollContent`) -/
structure PollContent (α : Type) where
  content : α
  pollId : Nat
  index : Nat
  deriving DecidableEq

/-- `state.rs:75-83`: the storage of the contract. -/
structure State where
  config : Config
  /-- `POLL_ID` -/
  lastPollId : Nat
  /-- `POLLS` -/
  polls : KV Nat StoredPoll
  /-- `POLL_MESSAGES` -/
  pollMessages : KV Digest (PollContent Message)
  /-- `POLL_WORKER_SETS` -/
  pollWorkerSets : KV Digest (PollContent Operators)

/-- `contract.rs:12-32` (`instantiate`) -/
def init (cfg : Config) : State := ⟨cfg, 0, .empty, .empty, .empty⟩

/-- `error.rs`, plus panics -/
inductive Err
  | emptyMessages
  | sourceChainMismatch
  | invalidMessageId
  | pollNotFound
  | workerSetAlreadyConfirmed
  | voting (e : VotingErr)
  | registryQuery
  | invalidBondingState
  | snapshot (e : SnapshotErr)
  | overflow
  /-- `assert_eq!` / `expect` of `query.rs:65-77`, `unwrap` of `state.rs:60` -/
  | panic
  deriving DecidableEq, Repr

/-- `query.rs:10-16` -/
inductive Status
  | verified
  | failedToVerify
  | inProgress
  | notVerified
  deriving DecidableEq, Repr

/-- `query.rs:58-92` (`verification_status`); failing assertions are `panic`. -/
def verificationStatus {α : Type} [DecidableEq α] (s : State) (stored : Option (PollContent α))
    (content : α) : Except Err Status :=
  match stored with
  | none => .ok .notVerified
  | some pc =>
    if pc.content ≠ content then .error .panic
    else
      match s.polls pc.pollId with
      | none => .error .panic
      | some sp =>
        match sp.poll.consensus pc.index with
        | .error _ => .error .panic
        | .ok r =>
          if r = some .succeededOnChain then .ok .verified
          else if sp.poll.status = .finished then .ok .failedToVerify
          else .ok .inProgress

/-- `query.rs:42-48` (`msg_verification_status`) -/
def msgStatus (H : Hashes) (s : State) (m : Message) : Except Err Status :=
  verificationStatus s (s.pollMessages (m.hash H.msg)) m

/-- `query.rs:50-56` (`worker_set_verification_status`) -/
def opsStatus (H : Hashes) (s : State) (o : Operators) : Except Err Status :=
  verificationStatus s (s.pollWorkerSets (H.ops o)) o

/-- one entry of `query.rs:24-31` -/
def isVerified1 (H : Hashes) (s : State) (m : Message) : Except Err (CCId × Bool) :=
  match msgStatus H s m with
  | .error e => .error e
  | .ok st => .ok (m.ccId, st = .verified)

/-- `query.rs:18-33` (`is_verified`) -/
def isVerified (H : Hashes) (s : State) (ms : List Message) : Except Err (List (CCId × Bool)) :=
  mapE (isVerified1 H s) ms

/-- `query.rs:35-40` (`is_worker_set_verified`) -/
def isWorkerSetVerified (H : Hashes) (s : State) (o : Operators) : Except Err Bool :=
  match opsStatus H s o with
  | .error e => .error e
  | .ok st => .ok (st = .verified)

/-- `events.rs:161-177` (`parse_message_id`): exactly two `:`-separated components, the first non-empty
(`nonempty::String`), the second a `u64`. -/
def parseMessageId (id : Str) : Option (Str × Nat) :=
  match splitOn idSep id with
  | [tx, idx] =>
    if tx = [] then none
    else match parseU64 idx with
      | none => none
      | some n => some (tx, n)
  | _ => none

/-- `events.rs:128-142` (`TxEventConfirmation`) -/
structure TxConfirmation where
  txId : Str
  eventIndex : Nat
  destinationAddress : Str
  destinationChain : ChainName
  sourceAddress : Str
  payloadHash : List Nat
  deriving DecidableEq, Repr

/-- `events.rs:144-159` (`TryFrom<Message> for TxEventConfirmation`) -/
def confirmationOf (m : Message) : Except Err TxConfirmation :=
  match parseMessageId m.ccId.id with
  | none => .error .invalidMessageId
  | some (tx, n) =>
    .ok ⟨tx, n, m.destinationAddress, m.destinationChain, m.sourceAddress, m.payloadHash⟩

/-- `events.rs:39-46` (`PollMetadata`) -/
structure PollMeta where
  pollId : Nat
  sourceChain : ChainName
  sourceGateway : Str
  confirmationHeight : Nat
  expiresAt : Nat
  /-- keys of a `HashMap` in Rust; listed in address order here -/
  participants : List Addr
  deriving DecidableEq, Repr

/-- events emitted (`events.rs:48-57`, `execute.rs:165-171`, `207-213`) -/
inductive Event
  | messagesPollStarted (msgs : List TxConfirmation) (pm : PollMeta)
  | workerSetPollStarted (txId : Str) (eventIndex : Nat) (ops : Operators) (pm : PollMeta)
  | voted (pollId : Nat) (voter : Addr)
  | pollEnded (pollId : Nat) (results : List (Option Vote))
  deriving DecidableEq, Repr

/-- response data -/
inductive Data
  | none
  | statuses (l : List (CCId × Bool))
  | pollResult (p : PollState)
  deriving DecidableEq, Repr

/-- `RecordParticipation` message sent to the rewards contract (`execute.rs:192-203`) -/
structure RewardMsg where
  contract : Addr
  eventId : Str
  worker : Addr
  deriving DecidableEq, Repr

/-- `Response` -/
structure Resp where
  data : Data := .none
  event : Option Event := none
  msgs : List RewardMsg := []
  deriving DecidableEq, Repr

/-- `msg.rs:27-49` (`ExecuteMsg`) -/
inductive Msg
  | verifyMessages (ms : List Message)
  | vote (pollId : Nat) (votes : List Vote)
  | endPoll (pollId : Nat)
  | verifyWorkerSet (messageId : Str) (ops : Operators)
  deriving DecidableEq

/-- One call: the block height, the sender, the answer the service registry gives to
`GetActiveWorkers` during this call (`none`: the query fails), and the message. -/
structure Call where
  height : Nat
  sender : Addr
  workers : Option (List Worker)
  msg : Msg

/-- conversion of one worker, `execute.rs:232-235` -/
def participantOf (w : Worker) : Except Err (Addr × Nat) :=
  match w.toParticipant with
  | none => .error .invalidBondingState
  | some p => .ok p

/-- `execute.rs:217-241` (`take_snapshot`) -/
def takeSnapshot (cfg : Config) (workers : Option (List Worker)) : Except Err Snapshot :=
  match workers with
  | none => .error .registryQuery
  | some ws =>
    match mapE participantOf ws with
    | .error e => .error e
    | .ok ps =>
      match Snapshot.new cfg.threshold ps with
      | .error e => .error (.snapshot e)
      | .ok snap => .ok snap

/-- `execute.rs:243-270` (`create_worker_set_poll`, `create_messages_poll`) -/
def createPoll (s : State) (height : Nat) (snap : Snapshot) (kind : PollKind) (size : Nat) :
    Except Err (Nat × State) :=
  match counterIncr s.lastPollId with
  | none => .error .overflow
  | some id =>
    if height + s.config.blockExpiry > u64Max then .error .overflow
    else .ok (id, { s with
      lastPollId := id
      polls := s.polls.set id
        ⟨kind, Poll.new id snap (height + s.config.blockExpiry) size⟩ })

/-- `execute.rs:119-125`: record every message with its index (later duplicates overwrite). -/
def saveMessages (H : Hashes) (id : Nat) : Nat → List Message → KV Digest (PollContent Message) →
    KV Digest (PollContent Message)
  | _, [], kv => kv
  | i, m :: t, kv => saveMessages H id (i + 1) t (kv.set (m.hash H.msg) ⟨m, id, i⟩)

/-- the metadata attached to a poll-started event (`execute.rs:53-60`, `135-142`) -/
def metaOf (cfg : Config) (id height : Nat) (snap : Snapshot) : PollMeta :=
  { pollId := id
    sourceChain := cfg.sourceChain
    sourceGateway := cfg.sourceGateway
    confirmationHeight := cfg.confirmationHeight
    expiresAt := height + cfg.blockExpiry
    participants := snap.participants.keys }

/-- `execute.rs:97-103`: keep the messages that failed or were never polled -/
def needsPoll : Status → Bool
  | .failedToVerify => true
  | .notVerified => true
  | .inProgress => false
  | .verified => false

/-- `execute.rs:66-146` (`verify_messages`) -/
def verifyMessages (H : Hashes) (s : State) (c : Call) (ms : List Message) :
    Except Err (State × Resp) :=
  if ms = [] then .error .emptyMessages
  else if ms.any (fun m => m.ccId.chain ≠ s.config.sourceChain) then .error .sourceChainMismatch
  else
    match isVerified H s ms with
    | .error e => .error e
    | .ok answers =>
      match mapE (msgStatus H s) ms with
      | .error e => .error e
      | .ok sts =>
        let pend := ((sts.zip ms).filter (fun p => needsPoll p.1)).map Prod.snd
        if pend = [] then .ok (s, { data := .statuses answers })
        else
          match takeSnapshot s.config c.workers with
          | .error e => .error e
          | .ok snap =>
            match createPoll s c.height snap .messages pend.length with
            | .error e => .error e
            | .ok (id, s1) =>
              if pend.length > 2 ^ 32 then .error .panic
              else
                match mapE confirmationOf pend with
                | .error e => .error e
                | .ok confs =>
                  .ok ({ s1 with pollMessages := saveMessages H id 0 pend s1.pollMessages },
                    { data := .statuses answers
                      event := some (.messagesPollStarted confs
                        (metaOf s.config id c.height snap)) })

/-- `execute.rs:23-64` (`verify_worker_set`) -/
def verifyWorkerSet (H : Hashes) (s : State) (c : Call) (mid : Str) (o : Operators) :
    Except Err (State × Resp) :=
  match isWorkerSetVerified H s o with
  | .error e => .error e
  | .ok true => .error .workerSetAlreadyConfirmed
  | .ok false =>
    match takeSnapshot s.config c.workers with
    | .error e => .error e
    | .ok snap =>
      match createPoll s c.height snap .workerSet 1 with
      | .error e => .error e
      | .ok (id, s1) =>
        match parseMessageId mid with
        | none => .error .invalidMessageId
        | some (tx, n) =>
          .ok ({ s1 with pollWorkerSets := s1.pollWorkerSets.set (H.ops o) ⟨o, id, 0⟩ },
            { event := some (.workerSetPollStarted tx n o (metaOf s.config id c.height snap)) })

/-- `execute.rs:148-172` (`vote`) -/
def vote (s : State) (c : Call) (id : Nat) (votes : List Vote) : Except Err (State × Resp) :=
  match s.polls id with
  | none => .error .pollNotFound
  | some sp =>
    match sp.poll.castVote c.height c.sender votes with
    | .error e => .error (.voting e)
    | .ok p =>
      .ok ({ s with polls := s.polls.set id { sp with poll := p } },
        { event := some (.voted id c.sender) })

/-- `execute.rs:174-215` (`end_poll`) -/
def endPoll (s : State) (c : Call) (id : Nat) : Except Err (State × Resp) :=
  match s.polls id with
  | none => .error .pollNotFound
  | some sp =>
    match sp.poll.finish c.height with
    | .error e => .error (.voting e)
    | .ok p =>
      .ok ({ s with polls := s.polls.set id { sp with poll := p } },
        { data := .pollResult p.state
          event := some (.pollEnded p.state.pollId p.state.results)
          msgs := p.state.consensusParticipants.map
            (fun a => ⟨s.config.rewards, showNat id, a⟩) })

/-- `contract.rs:34-51` (`execute`) -/
def exec (H : Hashes) (s : State) (c : Call) : Except Err (State × Resp) :=
  match c.msg with
  | .verifyMessages ms => verifyMessages H s c ms
  | .vote id vs => vote s c id vs
  | .endPoll id => endPoll s c id
  | .verifyWorkerSet mid o => verifyWorkerSet H s c mid o

end Amp.VV
