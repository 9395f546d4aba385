import Verif.Wire.HashText
import Verif.Chain.Model

/-!
# What contracts store, as text

`cw_storage_plus` keeps the JSON text of a value (`to_vec`) and reads it again when it is loaded (`from_slice`).  The models
of the contracts keep values instead.  Here are the writers and readers of all values that contracts store while they run;
the configurations, written once when a contract is instantiated, are left out.

Not part of `/repo`, and modelled here: the derived implementations of `Serialize` and `Deserialize`, and `flagset`.

Simplifications: as in `Wire/Msgs.lean` a text that is no address is refused when it is read; a counter that was never
increased is given as zero; keys of the storage are not modelled as bytes.
-/

namespace Amp.Wire

open Amp.Encoding (Bytes)
open Amp.Router (ChainName Lowering CCId Message)
open Amp.Chain (Store answer)
open Amp.Ampd (readAll lastWith)

/-! ### Voting verifier -/

/-- the names that tallies are stored under (`axelar-wasm-std/src/voting.rs:139-147`) -/
def tallyName : Std.Vote → Str
  | .succeededOnChain => "SucceededOnChain".toList
  | .failedOnChain => "FailedOnChain".toList
  | .notFound => "NotFound".toList

/-- `Tallies` (`axelar-wasm-std/src/voting.rs:149-161`): a map from names of votes, in the order of the names -/
def jsonTallies (t : Std.Tallies) : Json := .obj (Std.voteOrder.map (fun v => (tallyName v, jsonUint (t.get v))))

/-- the same, read; a map with other keys than those three is refused, which the code does not do -/
def asTallies (j : Json) : Option Std.Tallies :=
  match structOf ["FailedOnChain".toList, "NotFound".toList, "SucceededOnChain".toList] j with
  | some [some a, some b, some c] =>
    match asUint u256Max a, asUint u256Max b, asUint u256Max c with
    | some f, some n, some s => some ⟨f, n, s⟩
    | _, _, _ => none
  | _ => none

/-- `Option<Vec<Vote>>` -/
def jsonBallot : Option (List Std.Vote) → Json
  | none => .null
  | some vs => .arr (vs.map (fun v => .str (voteName v)))

/-- `Participation` (`axelar-wasm-std/src/voting.rs:203-207`) -/
def jsonParticipation (p : Std.Participation) : Json :=
  .obj [("weight".toList, jsonUint p.weight), ("vote".toList, jsonBallot p.vote)]

/-- the same, read; zero is not refused (`axelar-wasm-std/src/nonempty/uint.rs:57-59` has no `try_from`) -/
def asParticipation (j : Json) : Option Std.Participation :=
  match structOf ["weight".toList, "vote".toList] j with
  | some [some a, b] =>
    match asUint u256Max a, asOption (asVec asVote) b with
    | some w, some v => some ⟨w, v⟩
    | _, _ => none
  | _ => none

/-- `PollStatus` (`axelar-wasm-std/src/voting.rs:197-201`) -/
def pollStatusName : Std.PollStatus → Str
  | .inProgress => "in_progress".toList
  | .finished => "finished".toList

/-- the same, read -/
def asPollStatus : Json → Option Std.PollStatus := oneOf [
  onUnit "in_progress".toList .inProgress, onUnit "finished".toList .finished]

/-- a map whose keys are addresses, `BTreeMap<String, _>` or `HashMap<String, _>`; the first is written in the order of the
keys, the second in no fixed order -/
def jsonMap {α : Type} (T : Texts) (f : α → Json) (m : OMap Addr α) : Json := .obj (m.map (fun e => (T.text e.1, f e.2)))

/-- one entry of such a map -/
def asEntry {α : Type} (T : Texts) (f : Json → Option α) (p : Str × Json) : Option (Addr × α) :=
  match T.parse p.1, f p.2 with
  | some a, some x => some (a, x)
  | _, _ => none

/-- such a map, read: entries are inserted one after the other -/
def asMap {α : Type} (T : Texts) (f : Json → Option α) : Json → Option (OMap Addr α)
  | .obj l => (readAll (asEntry T f) l).map OMap.ofList
  | _ => none

/-- the fields of a poll -/
def pollFields : List Str := ["poll_id".toList, "quorum".toList, "expires_at".toList, "poll_size".toList, "tallies".toList,
  "status".toList, "participation".toList]

/-- `WeightedPoll` (`axelar-wasm-std/src/voting.rs:209-218`) -/
def jsonPoll (T : Texts) (p : Std.Poll) : Json :=
  .obj [("poll_id".toList, jsonUint p.pollId), ("quorum".toList, jsonUint p.quorum), ("expires_at".toList, .nat p.expiresAt),
    ("poll_size".toList, .nat p.pollSize), ("tallies".toList, .arr (p.tallies.map jsonTallies)),
    ("status".toList, .str (pollStatusName p.status)), ("participation".toList, jsonMap T jsonParticipation p.participation)]

/-- the same, read -/
def asPoll (T : Texts) (j : Json) : Option Std.Poll :=
  match structOf pollFields j with
  | some [some a, some b, some c, some d, some e, some f, some g] =>
    match asUint u64Max a, asUint u256Max b, asNat u64Max c, asNat u64Max d, asVec asTallies e, asPollStatus f,
      asMap T asParticipation g with
    | some id, some q, some x, some n, some ts, some st, some ps => some ⟨id, q, x, n, ts, st, ps⟩
    | _, _, _, _, _, _, _ => none
  | _ => none

/-- `Poll` (`voting-verifier/src/state.rs:27-31`) -/
def jsonStoredPoll (T : Texts) (p : VV.StoredPoll) : Json :=
  match p.kind with
  | .messages => .obj [("messages".toList, jsonPoll T p.poll)]
  | .workerSet => .obj [("confirm_worker_set".toList, jsonPoll T p.poll)]

/-- the same, read -/
def asStoredPoll (T : Texts) : Json → Option VV.StoredPoll := oneOf [
  onVariant "messages".toList (fun v => (asPoll T v).map (fun p => ⟨.messages, p⟩)),
  onVariant "confirm_worker_set".toList (fun v => (asPoll T v).map (fun p => ⟨.workerSet, p⟩))]

/-- `PollContent` (`voting-verifier/src/state.rs:47-52`) -/
def jsonContent {α : Type} (f : α → Json) (c : VV.PollContent α) : Json :=
  .obj [("content".toList, f c.content), ("poll_id".toList, jsonUint c.pollId), ("index_in_poll".toList, .nat c.index)]

/-- `u32::MAX` -/
def maxU32 : Nat := 4294967295

/-- the same, read -/
def asContent {α : Type} (f : Json → Option α) (j : Json) : Option (VV.PollContent α) :=
  match structOf ["content".toList, "poll_id".toList, "index_in_poll".toList] j with
  | some [some a, some b, some c] =>
    match f a, asUint u64Max b, asNat maxU32 c with
    | some x, some id, some i => some ⟨x, id, i⟩
    | _, _, _ => none
  | _ => none

/-! ### Router -/

/-- `ChainEndpoint`, `Gateway`, `FlagSet` (`connection-router/src/state.rs:366-387`, `axelar-wasm-std/src/flagset.rs:6-12`):
flags are their bits -/
def jsonEndpoint (T : Texts) (e : Router.ChainEndpoint) : Json :=
  .obj [("name".toList, .str e.name), ("gateway".toList, .obj [("address".toList, .str (T.text e.gateway))]),
    ("frozen_status".toList, .nat e.frozen.toNat)]

/-- flags, read; bits that are no flags are refused -/
def asFlags (j : Json) : Option Router.Flags := (asNat 3 j).map (BitVec.ofNat 8)

/-- `ChainEndpoint`, read -/
def asEndpoint (L : Lowering) (T : Texts) (j : Json) : Option Router.ChainEndpoint :=
  match structOf ["name".toList, "gateway".toList, "frozen_status".toList] j with
  | some [some a, some b, some c] =>
    match asName L a, one "address".toList (asAddr T) b, asFlags c with
    | some n, some g, some f => some ⟨n, g, f⟩
    | _, _, _ => none
  | _ => none

/-! ### Service registry -/

/-- `Service` (`service-registry/src/state.rs:20-30`) -/
def jsonService (T : Texts) (u : Unread) (n : Str) (sv : Registry.Service) : Json :=
  .obj [("name".toList, .str n), ("service_contract".toList, .str (T.text u.serviceContract)),
    ("min_num_workers".toList, .nat u.minWorkers), ("max_num_workers".toList, jsonOption u.maxWorkers),
    ("min_worker_bond".toList, jsonUint sv.minBond), ("bond_denom".toList, .str sv.denom),
    ("unbonding_period_days".toList, .nat sv.unbondingDays), ("description".toList, .str u.description)]

/-- the same, read -/
def asStoredService (T : Texts) (j : Json) : Option (Str × Registry.Service) :=
  match looseOf ["name".toList, "service_contract".toList, "min_num_workers".toList, "max_num_workers".toList,
    "min_worker_bond".toList, "bond_denom".toList, "unbonding_period_days".toList, "description".toList] j with
  | some [some a, some b, some c, d, some e, some f, some g, some h] =>
    match asStr a, asAddr T b, asNat u16Max c, asOption (asNat u16Max) d, asUint u128Max e, asStr f, asNat u16Max g,
      asStr h with
    | some n, some _, some _, some _, some bond, some denom, some days, some _ => some (n, ⟨bond, denom, days⟩)
    | _, _, _, _, _, _, _, _ => none
  | _ => none

/-! ### Rewards -/

/-- `Epoch` (`rewards/src/state.rs:106-110`) -/
def jsonEpoch (e : Rewards.Epoch) : Json :=
  .obj [("epoch_num".toList, .nat e.num), ("block_height_started".toList, .nat e.start)]

/-- the same, read -/
def asEpoch (j : Json) : Option Rewards.Epoch :=
  (two "epoch_num".toList "block_height_started".toList (asNat u64Max) (asNat u64Max) j).map (fun p => ⟨p.1, p.2⟩)

/-- `StoredParams` (`rewards/src/state.rs:19-24`) -/
def jsonStoredParams (p : Rewards.Params) (e : Rewards.Epoch) : Json :=
  .obj [("params".toList, jsonParams p), ("last_updated".toList, jsonEpoch e)]

/-- the same, read -/
def asStoredParams (j : Json) : Option (Rewards.Params × Rewards.Epoch) :=
  two "params".toList "last_updated".toList asParams asEpoch j

/-- `EpochTally` (`rewards/src/state.rs:26-33`) -/
def jsonTally (T : Texts) (contract : Addr) (t : Rewards.Tally) : Json :=
  .obj [("contract".toList, .str (T.text contract)), ("event_count".toList, .nat t.eventCount),
    ("participation".toList, jsonMap T .nat t.participation), ("epoch".toList, jsonEpoch t.epoch),
    ("params".toList, jsonParams t.params)]

/-- the same, read -/
def asTally (T : Texts) (j : Json) : Option (Addr × Rewards.Tally) :=
  match structOf ["contract".toList, "event_count".toList, "participation".toList, "epoch".toList, "params".toList] j with
  | some [some a, some b, some c, some d, some e] =>
    match asAddr T a, asNat u64Max b, asMap T (asNat u64Max) c, asEpoch d, asParams e with
    | some k, some n, some m, some ep, some p => some (k, ⟨n, m, ep, p⟩)
    | _, _, _, _, _ => none
  | _ => none

/-- `Event` (`rewards/src/state.rs:89-94`) -/
def jsonRewardEvent (T : Texts) (id : Str) (contract : Addr) (epoch : Nat) : Json :=
  .obj [("event_id".toList, .str id), ("contract".toList, .str (T.text contract)), ("epoch_num".toList, .nat epoch)]

/-- the same, read -/
def asRewardEvent (T : Texts) (j : Json) : Option (Str × Addr × Nat) :=
  match structOf ["event_id".toList, "contract".toList, "epoch_num".toList] j with
  | some [some a, some b, some c] =>
    match asText a, asAddr T b, asNat u64Max c with
    | some id, some k, some n => some (id, k, n)
    | _, _, _ => none
  | _ => none

/-- `RewardsPool` (`rewards/src/state.rs:112-116`) -/
def jsonPool (T : Texts) (contract : Addr) (balance : Nat) : Json :=
  .obj [("contract".toList, .str (T.text contract)), ("balance".toList, jsonUint balance)]

/-- the same, read -/
def asPool (T : Texts) (j : Json) : Option (Addr × Nat) :=
  two "contract".toList "balance".toList (asAddr T) (asUint u128Max) j

/-! ### Multisig -/

/-- `SigningSession` (`multisig/src/signing.rs:13-19`), `MsgToSign` (`types.rs:6-7`) -/
def jsonSigningSession (s : Multisig.Session) : Json :=
  .obj [("id".toList, jsonUint s.id), ("worker_set_id".toList, .str s.workerSetId), ("msg".toList, jsonHex s.msg),
    ("state".toList, jsonSessionState s.state)]

/-- the same, read; the length of the message is not checked again -/
def asSigningSession (j : Json) : Option Multisig.Session :=
  match structOf ["id".toList, "worker_set_id".toList, "msg".toList, "state".toList] j with
  | some [some a, some b, some c, some d] =>
    match asUint u64Max a, asStr b, asHex c, asSessionState d with
    | some id, some w, some m, some st => some ⟨id, w, m, st⟩
    | _, _, _, _ => none
  | _ => none

/-- `WorkerSet` (`multisig/src/worker_set.rs:9-20`), read: keys of the right length (`key.rs:120-140`), entries inserted one
after the other -/
def asWorkerSet (T : Texts) (j : Json) : Option Multisig.WorkerSet := (asRawSet T j).bind (fun r => answer r.decode)

/-! ### Prover -/

/-- `CommandType` (`multisig-prover/src/types.rs:16-20`) -/
def commandName : Encoding.CommandType → Str
  | .approveContractCall => "approve_contract_call".toList
  | .transferOperatorship => "transfer_operatorship".toList

/-- the same, read -/
def asCommandType : Json → Option Encoding.CommandType := oneOf [
  onUnit "approve_contract_call".toList .approveContractCall, onUnit "transfer_operatorship".toList .transferOperatorship]

/-- `Command` (`multisig-prover/src/types.rs:31-36`) -/
def jsonCommand (c : Encoding.Command) : Json :=
  .obj [("id".toList, jsonHex c.id), ("ty".toList, .str (commandName c.ty)), ("params".toList, jsonHex c.params)]

/-- the same, read -/
def asCommand (j : Json) : Option Encoding.Command :=
  match structOf ["id".toList, "ty".toList, "params".toList] j with
  | some [some a, some b, some c] =>
    match asHex a, asCommandType b, asHex c with
    | some id, some ty, some p => some ⟨id, ty, p⟩
    | _, _, _ => none
  | _ => none

/-- `Data` (`multisig-prover/src/encoding/mod.rs:128-132`) -/
def jsonData (d : Encoding.Data) : Json :=
  .obj [("destination_chain_id".toList, jsonUint d.destinationChainId), ("commands".toList, .arr (d.commands.map jsonCommand))]

/-- the same, read -/
def asData (j : Json) : Option Encoding.Data :=
  (two "destination_chain_id".toList "commands".toList (asUint u256Max) (asVec asCommand) j).map (fun p => ⟨p.1, p.2⟩)

/-- `Encoder` (`multisig-prover/src/encoding/mod.rs:17-22`) -/
def encoderName : Encoding.Encoder → Str
  | .abi => "abi".toList
  | .bcs => "bcs".toList

/-- the same, read -/
def asEncoder : Json → Option Encoding.Encoder := oneOf [onUnit "abi".toList .abi, onUnit "bcs".toList .bcs]

/-- `CommandBatch`, `BatchId` (`multisig-prover/src/types.rs:38-39, 87-93`) -/
def jsonBatch (b : Prover.Batch) : Json :=
  .obj [("id".toList, jsonHex b.id), ("message_ids".toList, .arr (b.messageIds.map jsonCCId)), ("data".toList, jsonData b.data),
    ("encoder".toList, .str (encoderName b.encoder))]

/-- the same, read -/
def asBatch (L : Lowering) (j : Json) : Option Prover.Batch :=
  match structOf ["id".toList, "message_ids".toList, "data".toList, "encoder".toList] j with
  | some [some a, some b, some c, some d] =>
    match asHex a, asVec (asCCId L) b, asData c, asEncoder d with
    | some id, some ids, some x, some e => some ⟨id, ids, x, e⟩
    | _, _, _, _ => none
  | _ => none

/-! ### All contracts -/

/-- a place in the storage of a contract -/
inductive Slot
  /-- voting verifier (`voting-verifier/src/state.rs:74-82`) -/
  | pollId
  | poll (id : Nat)
  | pollMessage (hash : Router.Digest)
  | pollWorkerSet (hash : Router.Digest)
  /-- gateway (`gateway/src/state.rs:26`) -/
  | outgoing (id : CCId)
  /-- router (`connection-router/src/state.rs:138-151`) -/
  | chain (name : ChainName)
  /-- nexus gateway (`nexus-gateway/src/state.rs:11`) -/
  | routed (id : CCId)
  /-- service registry (`service-registry/src/state.rs:131-136`) -/
  | service (name : Str)
  | worker (service : Str) (a : Addr)
  | supports (service : Str) (chain : ChainName) (a : Addr)
  /-- rewards (`rewards/src/state.rs:168-183`) -/
  | params
  | tally (contract : Addr) (epoch : Nat)
  | event (id : Str) (contract : Addr)
  | pool (contract : Addr)
  | watermark (contract : Addr)
  /-- multisig (`multisig/src/state.rs:22-76`) -/
  | sessionCounter
  | session (id : Nat)
  | signature (id : Nat) (a : Addr)
  | registeredSet (id : Str)
  | pubKey (a : Addr) (kt : Multisig.KeyType)
  | authorized (a : Addr)
  /-- prover (`multisig-prover/src/state.rs:29-35`) -/
  | batch (id : Bytes)
  | sessionBatch (id : Nat)
  | replyBatch
  | currentSet
  | nextSet

/-- what is stored -/
inductive Value
  | counter (n : Nat)
  | poll (p : VV.StoredPoll)
  | polledMessage (c : VV.PollContent Message)
  | polledSet (c : VV.PollContent Std.Operators)
  | message (m : Message)
  | endpoint (e : Router.ChainEndpoint)
  | unit
  | service (name : Str) (sv : Registry.Service)
  | worker (w : Registry.Worker)
  | params (p : Rewards.Params) (e : Rewards.Epoch)
  | tally (contract : Addr) (t : Rewards.Tally)
  | event (id : Str) (contract : Addr) (epoch : Nat)
  | pool (contract : Addr) (balance : Nat)
  | epoch (n : Nat)
  | session (s : Multisig.Session)
  | signature (s : Multisig.Signature)
  | workerSet (ws : Multisig.WorkerSet)
  | bytes (b : Bytes)
  | batch (b : Prover.Batch)
  deriving DecidableEq

/-- the value at a place, `none` if there is none -/
def stored : Store → Slot → Option Value
  | .verifier s, .pollId => some (.counter s.lastPollId)
  | .verifier s, .poll id => (s.polls id).map .poll
  | .verifier s, .pollMessage h => (s.pollMessages h).map .polledMessage
  | .verifier s, .pollWorkerSet h => (s.pollWorkerSets h).map .polledSet
  | .gateway s, .outgoing id => (s.outgoing id).map .message
  | .router s, .chain n => (Router.lookup s.chains n).map .endpoint
  | .nexus s, .routed id => (s.routed id).map (fun _ => .unit)
  | .registry s, .service n => (Registry.findService s.services n).map (.service n)
  | .registry s, .worker n a => (Registry.findWorker s n a).map .worker
  | .registry s, .supports n c a => (s.perChain (n, c)).bind (fun m => (OMap.get? m a).map (fun _ => .unit))
  | .rewards s, .params => some (.params s.params s.lastUpdated)
  | .rewards s, .tally c n => (s.tallies (c, n)).map (.tally c)
  | .rewards s, .event id c => (s.events (id, c)).map (.event id c)
  | .rewards s, .pool c => (OMap.get? s.pools c).map (.pool c)
  | .rewards s, .watermark c => (s.watermarks c).map .epoch
  | .multisig s, .sessionCounter => some (.counter s.counter)
  | .multisig s, .session id => (s.sessions id).map .session
  | .multisig s, .signature id a => (OMap.get? (s.signatures id) a).map .signature
  | .multisig s, .registeredSet id => (s.workerSets id).map .workerSet
  | .multisig s, .pubKey a kt => (s.pubKeys (a, kt)).map .bytes
  | .multisig s, .authorized a => (s.authorized a).map (fun _ => .unit)
  | .prover s _ _, .batch id => (s.batches id).map .batch
  | .prover s _ _, .sessionBatch id => (s.sessionBatch id).map .bytes
  | .prover s _ _, .replyBatch => s.replyBatch.map .bytes
  | .prover s _ _, .currentSet => s.current.map .workerSet
  | .prover s _ _, .nextSet => s.next.map .workerSet
  | _, _ => none

/-- as it is written -/
def Value.json (G : Texture) : Value → Json
  | .counter n => jsonUint n
  | .poll p => jsonStoredPoll G.T p
  | .polledMessage c => jsonContent jsonMessage c
  | .polledSet c => jsonContent jsonOperators c
  | .message m => jsonMessage m
  | .endpoint e => jsonEndpoint G.T e
  | .unit => .null
  | .service n sv => jsonService G.T G.u n sv
  | .worker w => jsonWorker G.T w
  | .params p e => jsonStoredParams p e
  | .tally c t => jsonTally G.T c t
  | .event id c n => jsonRewardEvent G.T id c n
  | .pool c n => jsonPool G.T c n
  | .epoch n => .nat n
  | .session s => jsonSigningSession s
  | .signature s => jsonSignature s
  | .workerSet ws => jsonWorkerSetFull G.T ws
  | .bytes b => jsonHex b
  | .batch b => jsonBatch b

/-- `()` -/
def asUnit : Json → Option Unit
  | .null => some ()
  | _ => none

/-- as it is read, by the type of what is kept at the place -/
def Slot.read (G : Texture) : Slot → Json → Option Value
  | .pollId, j | .sessionCounter, j => (asUint u64Max j).map .counter
  | .poll _, j => (asStoredPoll G.T j).map .poll
  | .pollMessage _, j => (asContent (asMessage G.L) j).map .polledMessage
  | .pollWorkerSet _, j => (asContent asOperators j).map .polledSet
  | .outgoing _, j => (asMessage G.L j).map .message
  | .chain _, j => (asEndpoint G.L G.T j).map .endpoint
  | .routed _, j | .supports _ _ _, j | .authorized _, j => (asUnit j).map (fun _ => .unit)
  | .service _, j => (asStoredService G.T j).map (fun p => .service p.1 p.2)
  | .worker _ _, j => (asWorker G.T j).map .worker
  | .params, j => (asStoredParams j).map (fun p => .params p.1 p.2)
  | .tally _ _, j => (asTally G.T j).map (fun p => .tally p.1 p.2)
  | .event _ _, j => (asRewardEvent G.T j).map (fun p => .event p.1 p.2.1 p.2.2)
  | .pool _, j => (asPool G.T j).map (fun p => .pool p.1 p.2)
  | .watermark _, j => (asNat u64Max j).map .epoch
  | .session _, j => (asSigningSession j).map .session
  | .signature _ _, j => (asSignature j).map .signature
  | .registeredSet _, j | .currentSet, j | .nextSet, j => (asWorkerSet G.T j).map .workerSet
  | .pubKey _ _, j | .sessionBatch _, j | .replyBatch, j => (asHex j).map .bytes
  | .batch _, j => (asBatch G.L j).map .batch

/-- `to_vec`: what is kept at a place -/
def kept (G : Texture) (s : Store) (k : Slot) : Option Str := (stored s k).map (fun v => (v.json G).render)

/-- `from_slice`: what is loaded from a text -/
def load (G : Texture) (k : Slot) (t : Str) : Option Value := (fromStr G.finite t).bind (k.read G)

end Amp.Wire
