import Verif.Wire.Events
import Verif.Chain.Model

/-!
# Messages between contracts as text

`Chain/Model.lean` hands messages from one contract to the other as values with a tag that tells for which contract they
are.  On the chain they are text: the sender writes JSON (`cosmwasm_std::to_binary`), and the receiver reads it as its own
`ExecuteMsg`, whoever it was written for.  Here are the writers and readers of all `ExecuteMsg`s.

Not part of `/repo`, and modelled here: the implementations of `Serialize` and `Deserialize` derived by `cw_serde`
(snake case, unknown fields refused), and those of `cosmwasm-std`.  Contracts read with `serde-json-wasm`, taken to read
the same JSON as `serde_json` does (`Wire/Json.lean`), except that structures are never read from arrays.

Simplification: a text that is no address is refused when it is read, also where the type is an unchecked `Addr`.
-/

namespace Amp.Wire

open Amp.Encoding (Bytes)
open Amp.Router (ChainName Lowering CCId Message)
open Amp.Chain (Msg)
open Amp.Ampd (readAll lastWith)

/-! ### Derived implementations of `Deserialize` -/

/-- no key occurs twice -/
def distinct : List Str → Bool
  | [] => true
  | k :: t => !t.contains k && distinct t

/-- A structure with the fields `names`, none twice and no others (`deny_unknown_fields`): the values of the fields. -/
def structOf (names : List Str) : Json → Option (List (Option Json))
  | .obj l =>
    if l.all (fun p => names.contains p.1) && distinct (l.map Prod.fst) then some (names.map (fun n => lastWith n l))
    else none
  | _ => none

/-- A structure whose unknown fields are ignored (`Deserialize` without `deny_unknown_fields`). -/
def looseOf (names : List Str) : Json → Option (List (Option Json))
  | .obj l => structOf names (.obj (l.filter (fun p => names.contains p.1)))
  | _ => none

/-- a structure with one field -/
def one {α : Type} (n : Str) (f : Json → Option α) (j : Json) : Option α :=
  match structOf [n] j with
  | some [some a] => f a
  | _ => none

/-- a structure with two fields -/
def two {α β : Type} (n m : Str) (f : Json → Option α) (g : Json → Option β) (j : Json) : Option (α × β) :=
  match structOf [n, m] j with
  | some [some a, some b] =>
    match f a, g b with
    | some x, some y => some (x, y)
    | _, _ => none
  | _ => none

/-- an enum: the variant with the name `k` and content -/
def onVariant {α : Type} (k : Str) (f : Json → Option α) : Json → Option α
  | .obj [(k', v)] => if k' = k then f v else none
  | _ => none

/-- an enum: the variant with the name `k` and no content -/
def onUnit {α : Type} (k : Str) (a : α) : Json → Option α
  | .str k' => if k' = k then some a else none
  | _ => none

/-- an enum: one of its variants -/
def oneOf {α : Type} : List (Json → Option α) → Json → Option α
  | [], _ => none
  | f :: t, j =>
    match f j with
    | some a => some a
    | none => oneOf t j

/-- an unsigned integer up to `max` -/
def asNat (max : Nat) : Json → Option Nat
  | .nat n => if n ≤ max then some n else none
  | _ => none

/-- `Option<T>`, where the field may be missing -/
def asOption {α : Type} (f : Json → Option α) : Option Json → Option (Option α)
  | none => some none
  | some .null => some none
  | some j => (f j).map some

/-- `Option<u16>`, `Option<u64>` -/
def jsonOption : Option Nat → Json
  | none => .null
  | some k => .nat k

/-! ### Common types -/

/-- `nonempty::String` (`axelar-wasm-std/src/nonempty/string.rs:6-26`), `connection_router::state::Address`
(`state.rs:86-113`) -/
def asText (j : Json) : Option Str :=
  match asStr j with
  | some [] => none
  | r => r

/-- `ChainName` (`connection-router/src/state.rs:279-319`) -/
def asName (L : Lowering) (j : Json) : Option ChainName := (asStr j).bind (ChainName.parse L)

/-- `[u8; 32]` as hexadecimal digits (`axelar-wasm-std/src/hex.rs:5-26`) -/
def asHash32 (j : Json) : Option Bytes :=
  match asHex j with
  | some b => if b.length = 32 then some b else none
  | none => none

/-- `CrossChainId` (`connection-router/src/state.rs:217-223`) -/
def jsonCCId (i : CCId) : Json := .obj [("chain".toList, .str i.chain), ("id".toList, .str i.id)]

/-- `CrossChainId` -/
def asCCId (L : Lowering) (j : Json) : Option CCId :=
  (two "chain".toList "id".toList (asName L) asText j).map (fun p => ⟨p.1, p.2⟩)

/-- the fields of a message -/
def routerFields : List Str := ["cc_id".toList, "source_address".toList, "destination_chain".toList,
  "destination_address".toList, "payload_hash".toList]

/-- `Message` (`connection-router/src/state.rs:160-171`) -/
def jsonMessage (m : Message) : Json :=
  .obj [("cc_id".toList, jsonCCId m.ccId), ("source_address".toList, .str m.sourceAddress),
    ("destination_chain".toList, .str m.destinationChain), ("destination_address".toList, .str m.destinationAddress),
    ("payload_hash".toList, jsonHex m.payloadHash)]

/-- `Message` -/
def asMessage (L : Lowering) (j : Json) : Option Message :=
  match structOf routerFields j with
  | some [some a, some b, some c, some d, some e] =>
    match asCCId L a, asText b, asName L c, asText d, asHash32 e with
    | some id, some s, some dc, some da, some h => some ⟨id, s, dc, da, h⟩
    | _, _, _, _, _ => none
  | _ => none

/-- `Vec<Message>` -/
def jsonMessages (ms : List Message) : Json := .arr (ms.map jsonMessage)

/-- `Operators` (`axelar-wasm-std/src/operators.rs:8-12`) -/
def jsonOperators (o : Std.Operators) : Json :=
  .obj [("weights_by_addresses".toList, .arr (o.weights.map jsonOperator)), ("threshold".toList, jsonUint o.threshold)]

/-- `Operators` -/
def asOperators (j : Json) : Option Std.Operators :=
  (two "weights_by_addresses".toList "threshold".toList (asVec (asPair asHex (asUint u256Max))) (asUint u256Max) j).map
    (fun p => ⟨p.1, p.2⟩)

/-! ### Voting verifier -/

/-- `voting-verifier/src/msg.rs:25-50` (`ExecuteMsg`) -/
def jsonVerifier : VV.Msg → Json
  | .verifyMessages ms => .obj [("verify_messages".toList, .obj [("messages".toList, jsonMessages ms)])]
  | .vote id votes => .obj [("vote".toList, .obj [("poll_id".toList, jsonUint id),
      ("votes".toList, .arr (votes.map (fun v => .str (voteName v))))])]
  | .endPoll id => .obj [("end_poll".toList, .obj [("poll_id".toList, jsonUint id)])]
  | .verifyWorkerSet id o => .obj [("verify_worker_set".toList, .obj [("message_id".toList, .str id),
      ("new_operators".toList, jsonOperators o)])]

/-- the same, read -/
def readVerifier (L : Lowering) : Json → Option VV.Msg := oneOf [
  onVariant "end_poll".toList (fun v => (one "poll_id".toList (asUint u64Max) v).map .endPoll),
  onVariant "vote".toList (fun v => (two "poll_id".toList "votes".toList (asUint u64Max) (asVec asVote) v).map
    (fun p => .vote p.1 p.2)),
  onVariant "verify_messages".toList (fun v => (one "messages".toList (asVec (asMessage L)) v).map .verifyMessages),
  onVariant "verify_worker_set".toList (fun v => (two "message_id".toList "new_operators".toList asText asOperators v).map
    (fun p => .verifyWorkerSet p.1 p.2))]

/-! ### Gateway -/

/-- `gateway/src/msg.rs:10-17` (`ExecuteMsg`) -/
def jsonGateway : Gateway.Msg → Json
  | .verifyMessages ms => .obj [("verify_messages".toList, jsonMessages ms)]
  | .routeMessages ms => .obj [("route_messages".toList, jsonMessages ms)]

/-- the same, read -/
def readGateway (L : Lowering) : Json → Option Gateway.Msg := oneOf [
  onVariant "verify_messages".toList (fun v => (asVec (asMessage L) v).map .verifyMessages),
  onVariant "route_messages".toList (fun v => (asVec (asMessage L) v).map .routeMessages)]

/-! ### Router -/

/-- `GatewayDirection` (`connection-router/src/state.rs:379-387`) -/
def directionName : Router.Direction → Str
  | .none => "None".toList
  | .incoming => "Incoming".toList
  | .outgoing => "Outgoing".toList
  | .bidirectional => "Bidirectional".toList

/-- `GatewayDirection` -/
def asDirection : Json → Option Router.Direction := oneOf [
  onUnit "None".toList .none, onUnit "Incoming".toList .incoming, onUnit "Outgoing".toList .outgoing,
  onUnit "Bidirectional".toList .bidirectional]

/-- `connection-router/src/msg.rs:14-53` (`ExecuteMsg`) -/
def jsonRouter (T : Texts) : Router.Msg → Json
  | .registerChain c g => .obj [("register_chain".toList, .obj [("chain".toList, .str c),
      ("gateway_address".toList, .str (T.text g))])]
  | .upgradeGateway c g => .obj [("upgrade_gateway".toList, .obj [("chain".toList, .str c),
      ("contract_address".toList, .str (T.text g))])]
  | .freezeChain c d => .obj [("freeze_chain".toList, .obj [("chain".toList, .str c),
      ("direction".toList, .str (directionName d))])]
  | .unfreezeChain c d => .obj [("unfreeze_chain".toList, .obj [("chain".toList, .str c),
      ("direction".toList, .str (directionName d))])]
  | .routeMessages ms => .obj [("route_messages".toList, jsonMessages ms)]

/-- the same, read -/
def readRouter (L : Lowering) (T : Texts) : Json → Option Router.Msg := oneOf [
  onVariant "register_chain".toList (fun v => (two "chain".toList "gateway_address".toList (asName L) (asAddr T) v).map
    (fun p => .registerChain p.1 p.2)),
  onVariant "upgrade_gateway".toList (fun v => (two "chain".toList "contract_address".toList (asName L) (asAddr T) v).map
    (fun p => .upgradeGateway p.1 p.2)),
  onVariant "freeze_chain".toList (fun v => (two "chain".toList "direction".toList (asName L) asDirection v).map
    (fun p => .freezeChain p.1 p.2)),
  onVariant "unfreeze_chain".toList (fun v => (two "chain".toList "direction".toList (asName L) asDirection v).map
    (fun p => .unfreezeChain p.1 p.2)),
  onVariant "route_messages".toList (fun v => (asVec (asMessage L) v).map .routeMessages)]

/-! ### Nexus gateway -/

/-- the fields of a message of the nexus module -/
def nexusFields : List Str := ["source_chain".toList, "source_address".toList, "destination_chain".toList,
  "destination_address".toList, "payload_hash".toList, "source_tx_id".toList, "source_tx_index".toList]

/-- `Message` (`nexus-gateway/src/nexus.rs:14-24`); bytes are arrays of numbers -/
def jsonNexusMsg (n : Nexus.NexusMsg) : Json :=
  .obj [("source_chain".toList, .str n.sourceChain), ("source_address".toList, .str n.sourceAddress),
    ("destination_chain".toList, .str n.destinationChain), ("destination_address".toList, .str n.destinationAddress),
    ("payload_hash".toList, .arr (n.payloadHash.map .nat)), ("source_tx_id".toList, .arr (n.sourceTxId.map .nat)),
    ("source_tx_index".toList, .nat n.sourceTxIndex)]

/-- `[u8; 32]` as an array -/
def asBytes32 (j : Json) : Option Bytes :=
  match asVec (asNat 255) j with
  | some b => if b.length = 32 then some b else none
  | none => none

/-- `nonempty::Vec<u8>` (`axelar-wasm-std/src/nonempty/vec.rs:6-22`) -/
def asSomeBytes (j : Json) : Option Bytes :=
  match asVec (asNat 255) j with
  | some [] => none
  | r => r

/-- `Message` (`nexus-gateway/src/nexus.rs:14-24`) -/
def asNexusMsg (L : Lowering) (j : Json) : Option Nexus.NexusMsg :=
  match looseOf nexusFields j with
  | some [some a, some b, some c, some d, some e, some f, some g] =>
    match asName L a, asText b, asName L c, asText d, asBytes32 e, asSomeBytes f, asNat u64Max g with
    | some sc, some sa, some dc, some da, some h, some id, some i => some ⟨sc, sa, dc, da, h, id, i⟩
    | _, _, _, _, _, _, _ => none
  | _ => none

/-- `nexus-gateway/src/msg.rs:11-15` (`ExecuteMsg`) -/
def jsonNexus : Nexus.Msg → Json
  | .routeMessages ms => .obj [("route_messages".toList, jsonMessages ms)]
  | .routeMessagesFromNexus ns => .obj [("route_messages_from_nexus".toList, .arr (ns.map jsonNexusMsg))]

/-- the same, read -/
def readNexus (L : Lowering) : Json → Option Nexus.Msg := oneOf [
  onVariant "route_messages".toList (fun v => (asVec (asMessage L) v).map .routeMessages),
  onVariant "route_messages_from_nexus".toList (fun v => (asVec (asNexusMsg L) v).map .routeMessagesFromNexus)]

/-! ### Service registry -/

/-- the fields of a service that nothing reads, left out of the model of the registry -/
structure Unread where
  serviceContract : Addr
  minWorkers : Nat
  maxWorkers : Option Nat
  description : Str

/-- `u16::MAX` -/
def u16Max : Nat := 65535

/-- the fields of `RegisterService` -/
def serviceFields : List Str := ["service_name".toList, "service_contract".toList, "min_num_workers".toList,
  "max_num_workers".toList, "min_worker_bond".toList, "bond_denom".toList, "unbonding_period_days".toList,
  "description".toList]

/-- `service-registry/src/msg.rs:10-51` (`ExecuteMsg`) -/
def jsonRegistry (T : Texts) (u : Unread) : Registry.Msg → Json
  | .registerService n sv => .obj [("register_service".toList, .obj [("service_name".toList, .str n),
      ("service_contract".toList, .str (T.text u.serviceContract)), ("min_num_workers".toList, .nat u.minWorkers),
      ("max_num_workers".toList, jsonOption u.maxWorkers), ("min_worker_bond".toList, jsonUint sv.minBond), ("bond_denom".toList, .str sv.denom),
      ("unbonding_period_days".toList, .nat sv.unbondingDays), ("description".toList, .str u.description)])]
  | .authorizeWorkers ws n => .obj [("authorize_workers".toList, .obj [
      ("workers".toList, .arr (ws.map (fun a => .str (T.text a)))), ("service_name".toList, .str n)])]
  | .unauthorizeWorkers ws n => .obj [("unauthorize_workers".toList, .obj [
      ("workers".toList, .arr (ws.map (fun a => .str (T.text a)))), ("service_name".toList, .str n)])]
  | .declareChainSupport n cs => .obj [("declare_chain_support".toList, .obj [("service_name".toList, .str n),
      ("chains".toList, .arr (cs.map .str))])]
  | .bondWorker n => .obj [("bond_worker".toList, .obj [("service_name".toList, .str n)])]
  | .unbondWorker n => .obj [("unbond_worker".toList, .obj [("service_name".toList, .str n)])]
  | .claimStake n => .obj [("claim_stake".toList, .obj [("service_name".toList, .str n)])]

/-- `RegisterService` -/
def asService (T : Texts) (j : Json) : Option (Str × Registry.Service) :=
  match structOf serviceFields j with
  | some [some a, some b, some c, d, some e, some f, some g, some h] =>
    match asStr a, asAddr T b, asNat u16Max c, asOption (asNat u16Max) d, asUint u128Max e, asStr f, asNat u16Max g,
      asStr h with
    | some n, some _, some _, some _, some bond, some denom, some days, some _ => some (n, ⟨bond, denom, days⟩)
    | _, _, _, _, _, _, _, _ => none
  | _ => none

/-- `service-registry/src/msg.rs:10-51` (`ExecuteMsg`), read -/
def readRegistry (L : Lowering) (T : Texts) : Json → Option Registry.Msg := oneOf [
  onVariant "register_service".toList (fun v => (asService T v).map (fun p => .registerService p.1 p.2)),
  onVariant "authorize_workers".toList (fun v => (two "workers".toList "service_name".toList (asVec (asAddr T)) asStr v).map
    (fun p => .authorizeWorkers p.1 p.2)),
  onVariant "unauthorize_workers".toList (fun v => (two "workers".toList "service_name".toList (asVec (asAddr T)) asStr v).map
    (fun p => .unauthorizeWorkers p.1 p.2)),
  onVariant "declare_chain_support".toList (fun v => (two "service_name".toList "chains".toList asStr (asVec (asName L)) v).map
    (fun p => .declareChainSupport p.1 p.2)),
  onVariant "bond_worker".toList (fun v => (one "service_name".toList asStr v).map .bondWorker),
  onVariant "unbond_worker".toList (fun v => (one "service_name".toList asStr v).map .unbondWorker),
  onVariant "claim_stake".toList (fun v => (one "service_name".toList asStr v).map .claimStake)]

/-! ### Rewards -/

/-- `Params` (`rewards/src/msg.rs:11-25`), `Threshold` (`axelar-wasm-std/src/threshold.rs:17-24`) -/
def jsonParams (p : Rewards.Params) : Json :=
  .obj [("epoch_duration".toList, jsonUint p.duration), ("rewards_per_epoch".toList, jsonUint p.rewards),
    ("participation_threshold".toList, .arr [jsonUint p.threshold.num, jsonUint p.threshold.den])]

/-- `Threshold` -/
def asThreshold (j : Json) : Option Std.Threshold :=
  match asPair (asUint u64Max) (asUint u64Max) j with
  | some (n, d) =>
    match Std.Threshold.tryFrom n d with
    | .ok t => some t
    | .error _ => none
  | none => none

/-- `nonempty::Uint64` (`axelar-wasm-std/src/nonempty/uint.rs:6-22`) -/
def asNonZero (max : Nat) (j : Json) : Option Nat :=
  match asUint max j with
  | some n => if n = 0 then none else some n
  | none => none

/-- `Params`.  `rewards_per_epoch` is a `nonempty::Uint128`, but that type is read without a check
(`axelar-wasm-std/src/nonempty/uint.rs:91-93` has no `try_from`). -/
def asParams (j : Json) : Option Rewards.Params :=
  match structOf ["epoch_duration".toList, "rewards_per_epoch".toList, "participation_threshold".toList] j with
  | some [some a, some b, some c] =>
    match asNonZero u64Max a, asUint u128Max b, asThreshold c with
    | some d, some r, some t => some ⟨d, r, t⟩
    | _, _, _ => none
  | _ => none

/-- `rewards/src/msg.rs:27-59` (`ExecuteMsg`) -/
def jsonRewards (T : Texts) : Rewards.Msg → Json
  | .recordParticipation e w => .obj [("record_participation".toList, .obj [("event_id".toList, .str e),
      ("worker_address".toList, .str (T.text w))])]
  | .distributeRewards c n => .obj [("distribute_rewards".toList, .obj [("contract_address".toList, .str (T.text c)),
      ("epoch_count".toList, jsonOption n)])]
  | .addRewards c => .obj [("add_rewards".toList, .obj [("contract_address".toList, .str (T.text c))])]
  | .updateParams p => .obj [("update_params".toList, .obj [("params".toList, jsonParams p)])]

/-- `DistributeRewards` -/
def asDistribute (T : Texts) (j : Json) : Option (Addr × Option Nat) :=
  match structOf ["contract_address".toList, "epoch_count".toList] j with
  | some [some a, b] =>
    match asAddr T a, asOption (asNat u64Max) b with
    | some c, some n => some (c, n)
    | _, _ => none
  | _ => none

/-- the messages of the rewards contract, read -/
def readRewards (T : Texts) : Json → Option Rewards.Msg := oneOf [
  onVariant "record_participation".toList (fun v => (two "event_id".toList "worker_address".toList asText (asAddr T) v).map
    (fun p => .recordParticipation p.1 p.2)),
  onVariant "distribute_rewards".toList (fun v => (asDistribute T v).map (fun p => .distributeRewards p.1 p.2)),
  onVariant "add_rewards".toList (fun v => (one "contract_address".toList (asAddr T) v).map .addRewards),
  onVariant "update_params".toList (fun v => (one "params".toList asParams v).map .updateParams)]

/-! ### Multisig -/

/-- `PublicKey` (`multisig/src/key.rs:110-118`) -/
def jsonRawKey (kt : Multisig.KeyType) (b : Bytes) : Json :=
  match kt with
  | .ecdsa => .obj [("ecdsa".toList, jsonHex b)]
  | .ed25519 => .obj [("ed25519".toList, jsonHex b)]

/-- `PublicKey`; the length is checked by the model of the contract -/
def asRawKey : Json → Option (Multisig.KeyType × Bytes) := oneOf [
  onVariant "ecdsa".toList (fun v => (asHex v).map (fun b => (.ecdsa, b))),
  onVariant "ed25519".toList (fun v => (asHex v).map (fun b => (.ed25519, b)))]

/-- `Signer` (`multisig/src/msg.rs:69-75`) -/
def jsonSigner (T : Texts) (s : Multisig.RawSigner) : Json :=
  .obj [("address".toList, .str (T.text s.address)), ("weight".toList, jsonUint s.weight),
    ("pub_key".toList, jsonRawKey s.keyType s.key)]

/-- `Signer` -/
def asSigner (T : Texts) (j : Json) : Option Multisig.RawSigner :=
  match structOf ["address".toList, "weight".toList, "pub_key".toList] j with
  | some [some a, some b, some c] =>
    match asAddr T a, asUint u256Max b, asRawKey c with
    | some ad, some w, some k => some ⟨ad, w, k.1, k.2⟩
    | _, _, _ => none
  | _ => none

/-- `WorkerSet` (`multisig/src/worker_set.rs:9-20`): the signers by the text of their addresses -/
def jsonRawSet (T : Texts) (ws : Multisig.RawWorkerSet) : Json :=
  .obj [("signers".toList, .obj (ws.signers.map (fun e => (T.text e.1, jsonSigner T e.2)))),
    ("threshold".toList, jsonUint ws.threshold), ("created_at".toList, .nat ws.createdAt)]

/-- one entry of the map of signers -/
def asSignerEntry (T : Texts) (p : Str × Json) : Option (Addr × Multisig.RawSigner) :=
  match T.parse p.1, asSigner T p.2 with
  | some a, some s => some (a, s)
  | _, _ => none

/-- `BTreeMap<String, Signer>`; the map is built from the entries by the model of the contract -/
def asSigners (T : Texts) : Json → Option (List (Addr × Multisig.RawSigner))
  | .obj l => readAll (asSignerEntry T) l
  | _ => none

/-- `WorkerSet` -/
def asRawSet (T : Texts) (j : Json) : Option Multisig.RawWorkerSet :=
  match structOf ["signers".toList, "threshold".toList, "created_at".toList] j with
  | some [some a, some b, some c] =>
    match asSigners T a, asUint u256Max b, asNat u64Max c with
    | some ss, some t, some h => some ⟨ss, t, h⟩
    | _, _, _ => none
  | _ => none

/-- `multisig/src/msg.rs:19-51` (`ExecuteMsg`).  A signature verifier that is no address is written as the empty text. -/
def jsonMultisig (T : Texts) : Multisig.Msg → Json
  | .startSigningSession wid msg chain ok => .obj [("start_signing_session".toList, .obj [
      ("worker_set_id".toList, .str wid), ("msg".toList, jsonHex msg), ("chain_name".toList, .str chain),
      ("sig_verifier".toList, if ok then .null else .str [])])]
  | .submitSignature id sig => .obj [("submit_signature".toList, .obj [("session_id".toList, jsonUint id),
      ("signature".toList, jsonHex sig)])]
  | .registerWorkerSet ws => .obj [("register_worker_set".toList, .obj [("worker_set".toList, jsonRawSet T ws)])]
  | .registerPublicKey kt key => .obj [("register_public_key".toList, .obj [("public_key".toList, jsonRawKey kt key)])]
  | .authorizeCaller a => .obj [("authorize_caller".toList, .obj [("contract_address".toList, .str (T.text a))])]
  | .unauthorizeCaller a => .obj [("unauthorize_caller".toList, .obj [("contract_address".toList, .str (T.text a))])]

/-- `StartSigningSession`; of the signature verifier only whether it is absent or an address -/
def asStart (L : Lowering) (T : Texts) (j : Json) : Option Multisig.Msg :=
  match structOf ["worker_set_id".toList, "msg".toList, "chain_name".toList, "sig_verifier".toList] j with
  | some [some a, some b, some c, d] =>
    match asStr a, asHex b, asName L c, asOption asStr d with
    | some wid, some m, some ch, some v => some (.startSigningSession wid m ch (match v with
      | none => true
      | some s => (T.parse s).isSome))
    | _, _, _, _ => none
  | _ => none

/-- the messages of the multisig contract, read -/
def readMultisig (L : Lowering) (T : Texts) : Json → Option Multisig.Msg := oneOf [
  onVariant "start_signing_session".toList (asStart L T),
  onVariant "submit_signature".toList (fun v => (two "session_id".toList "signature".toList (asUint u64Max) asHex v).map
    (fun p => .submitSignature p.1 p.2)),
  onVariant "register_worker_set".toList (fun v => (one "worker_set".toList (asRawSet T) v).map .registerWorkerSet),
  onVariant "register_public_key".toList (fun v => (one "public_key".toList asRawKey v).map
    (fun p => .registerPublicKey p.1 p.2)),
  onVariant "authorize_caller".toList (fun v => (one "contract_address".toList (asAddr T) v).map .authorizeCaller),
  onVariant "unauthorize_caller".toList (fun v => (one "contract_address".toList (asAddr T) v).map .unauthorizeCaller)]

/-! ### Prover -/

/-- `multisig-prover/src/msg.rs:25-32` (`ExecuteMsg`) -/
def jsonProver : Prover.Msg → Json
  | .constructProof ids => .obj [("construct_proof".toList, .obj [("message_ids".toList, .arr (ids.map jsonCCId))])]
  | .updateWorkerSet => .str "update_worker_set".toList
  | .confirmWorkerSet => .str "confirm_worker_set".toList

/-- the same, read -/
def readProver (L : Lowering) : Json → Option Prover.Msg := oneOf [
  onVariant "construct_proof".toList (fun v => (one "message_ids".toList (asVec (asCCId L)) v).map .constructProof),
  onUnit "update_worker_set".toList .updateWorkerSet, onUnit "confirm_worker_set".toList .confirmWorkerSet]

/-! ### All contracts -/

/-- the kinds of contracts -/
inductive Party
  | verifier | gateway | router | nexus | registry | rewards | multisig | prover
  deriving DecidableEq

/-- the kind of a storage -/
def party : Chain.Store → Party
  | .verifier _ => .verifier
  | .gateway _ => .gateway
  | .router _ => .router
  | .nexus _ => .nexus
  | .registry _ => .registry
  | .rewards _ => .rewards
  | .multisig _ => .multisig
  | .prover _ _ _ => .prover

/-- what is written when a message is sent -/
def jsonOf (T : Texts) (u : Unread) : Msg → Json
  | .verifier m => jsonVerifier m
  | .gateway m => jsonGateway m
  | .router m => jsonRouter T m
  | .nexus m => jsonNexus m
  | .registry m => jsonRegistry T u m
  | .rewards m => jsonRewards T m
  | .multisig m => jsonMultisig T m
  | .prover m => jsonProver m
  | .route ms => .obj [("route_messages".toList, jsonMessages ms)]

/-- the tag of a message of the gateway; `RouteMessages` has its own in `Chain/Model.lean` -/
def tagGateway : Gateway.Msg → Msg
  | .routeMessages ms => .route ms
  | m => .gateway m

/-- the tag of a message of the router -/
def tagRouter : Router.Msg → Msg
  | .routeMessages ms => .route ms
  | m => .router m

/-- the tag of a message of the nexus gateway -/
def tagNexus : Nexus.Msg → Msg
  | .routeMessages ms => .route ms
  | m => .nexus m

/-- what a contract takes a JSON value for -/
def readAs (L : Lowering) (T : Texts) : Party → Json → Option Msg
  | .verifier, j => (readVerifier L j).map .verifier
  | .gateway, j => (readGateway L j).map tagGateway
  | .router, j => (readRouter L T j).map tagRouter
  | .nexus, j => (readNexus L j).map tagNexus
  | .registry, j => (readRegistry L T j).map .registry
  | .rewards, j => (readRewards T j).map .rewards
  | .multisig, j => (readMultisig L T j).map .multisig
  | .prover, j => (readProver L j).map .prover

end Amp.Wire
