import Verif.Wire.Json
import Verif.Wire.Base64
import Verif.Ampd.Wire
import Verif.Ampd.SigningProps

/-!
# Events as text: what the contracts write, what the node hands out, what the daemon reads

`Ampd/Wire.lean` and `Ampd/SigningProps.lean` take the writing and reading of JSON together.  Here both sides are
modelled down to the characters, so that the two can be compared (`Wire/Props.lean`).

Not part of `/repo`, and modelled here: `serde_json` (`Wire/Json.lean`), the derived implementations of `Serialize` and
`Deserialize`, the wasm module of the chain, which puts `wasm-` before the type of an event and adds the attribute
`_contract_address`, and the base 64 encoding of attributes by the node.
-/

namespace Amp.Wire

open Amp.Encoding (Bytes)
open Amp.Router (ChainName Lowering)
open Amp.Std (Vote)
open Amp.Multisig (PublicKey)
open Amp.Ampd (readAll lastWith Abci)

/-- Text of account addresses and back (`cosmrs::AccountId`), and the readers of Sui digests and addresses. -/
structure Texts where
  text : Addr → Str
  parse : Str → Option Addr
  digest : Str → Option Bytes
  suiAddr : Str → Option Bytes

/-! ### What the contracts write -/

/-- `Uint64`, `Uint256` (`cosmwasm-std`): decimal digits in a string -/
def jsonUint (n : Nat) : Json := .str (showNat n)

/-- `HexBinary` (`cosmwasm-std`), `packages/axelar-wasm-std/src/hex.rs:5-10`: small letters -/
def jsonHex (b : Bytes) : Json := .str (encodeHex b)

/-- `Serialize for Vote` (`voting.rs:138-144`, `cw_serde`: snake case) -/
def voteName : Vote → Str
  | .succeededOnChain => "succeeded_on_chain".toList
  | .failedOnChain => "failed_on_chain".toList
  | .notFound => "not_found".toList

/-- `Serialize for TxEventConfirmation` (`voting-verifier/src/events.rs:128-142`) -/
def jsonConfirmation (c : VV.TxConfirmation) : Json :=
  .obj [("tx_id".toList, .str c.txId), ("event_index".toList, .nat c.eventIndex),
    ("destination_address".toList, .str c.destinationAddress), ("destination_chain".toList, .str c.destinationChain),
    ("source_address".toList, .str c.sourceAddress), ("payload_hash".toList, jsonHex c.payloadHash)]

/-- `Serialize for (HexBinary, Uint256)` -/
def jsonOperator (o : Bytes × Nat) : Json := .arr [jsonHex o.1, jsonUint o.2]

/-- `Serialize for WorkerSetConfirmation` (`events.rs:114-119`) and `Operators` (`operators.rs:8-12`) -/
def jsonWorkerSet (tx : Str) (i : Nat) (o : Std.Operators) : Json :=
  .obj [("tx_id".toList, .str tx), ("event_index".toList, .nat i),
    ("operators".toList, .obj [("weights_by_addresses".toList, .arr (o.weights.map jsonOperator)),
      ("threshold".toList, jsonUint o.threshold)])]

/-- `From<PollMetadata> for Vec<Attribute>` (`events.rs:60-83`) -/
def metaAttributes (T : Texts) (pm : VV.PollMeta) : List (Str × Str) :=
  [("poll_id".toList, (jsonUint pm.pollId).render), ("source_chain".toList, pm.sourceChain),
    ("source_gateway_address".toList, pm.sourceGateway), ("confirmation_height".toList, showNat pm.confirmationHeight),
    ("expires_at".toList, showNat pm.expiresAt),
    ("participants".toList, (Json.arr (pm.participants.map (fun a => .str (T.text a)))).render)]

/-- `From<PollStarted>`, `From<Voted>`, `From<PollEnded> for Event` (`events.rs:85-112`, `179-216`): the attributes -/
def verifierAttributes (T : Texts) : VV.Event → List (Str × Str)
  | .messagesPollStarted confs pm =>
    ("messages".toList, (Json.arr (confs.map jsonConfirmation)).render) :: metaAttributes T pm
  | .workerSetPollStarted tx i o pm => ("worker_set".toList, (jsonWorkerSet tx i o).render) :: metaAttributes T pm
  | .voted id voter => [("poll_id".toList, (jsonUint id).render), ("voter".toList, T.text voter)]
  | .pollEnded id results => [("poll_id".toList, (jsonUint id).render),
      ("results".toList, (Json.arr (results.map (fun r => match r with
        | none => .null
        | some v => .str (voteName v)))).render)]

/-- `Serialize for PublicKey` (`multisig/src/key.rs:110-118`) -/
def jsonKey : PublicKey → Json
  | .ecdsa b => .obj [("ecdsa".toList, jsonHex b)]
  | .ed25519 b => .obj [("ed25519".toList, jsonHex b)]

/-- the bytes of a signature (`AsRef<[u8]> for Signature`) -/
def signatureBytes : Multisig.Signature → Bytes
  | .ecdsa b => b
  | .ecdsaRecoverable b => b
  | .ed25519 b => b

/-- `From<Event> for cosmwasm_std::Event` (`multisig/src/events.rs:42-97`): the attributes -/
def multisigAttributes (T : Texts) : Multisig.Event → List (Str × Str)
  | .signingStarted id wid keys msg chain => [("session_id".toList, showNat id), ("worker_set_id".toList, wid),
      ("pub_keys".toList, (Json.obj (keys.map (fun p => (T.text p.1, jsonKey p.2)))).render),
      ("msg".toList, encodeHex msg), ("chain".toList, chain)]
  | .signatureSubmitted id a sig => [("session_id".toList, showNat id), ("participant".toList, T.text a),
      ("signature".toList, encodeHex (signatureBytes sig))]
  | .signingCompleted id h => [("session_id".toList, showNat id), ("completed_at".toList, showNat h)]
  | .publicKeyRegistered a key => [("worker".toList, (Json.str (T.text a)).render),
      ("public_key".toList, (jsonKey key).render)]
  | .callerAuthorized a => [("contract_address".toList, T.text a)]
  | .callerUnauthorized a => [("contract_address".toList, T.text a)]

/-! ### What the node hands out -/

/-- `tendermint::abci::Event`: the type, and keys and values in base 64 -/
structure RawEvent where
  kind : Str
  attributes : List (Str × Str)
  deriving DecidableEq

/-- The wasm module of the chain adds the address of the contract, the node encodes keys and values. -/
def publish (T : Texts) (kind : Str) (contract : Addr) (attributes : List (Str × Str)) : RawEvent :=
  ⟨kind, (("_contract_address".toList, T.text contract) :: attributes).map
    (fun p => (encode64 (utf8Bytes p.1), encode64 (utf8Bytes p.2)))⟩

/-- an event of a voting verifier, as handed out -/
def publishVerifier (T : Texts) (contract : Addr) (ev : VV.Event) : RawEvent :=
  publish T (Ampd.eventType ev) contract (verifierAttributes T ev)

/-- an event of a multisig contract, as handed out -/
def publishMultisig (T : Texts) (contract : Addr) (ev : Multisig.Event) : RawEvent :=
  publish T (Ampd.Signing.eventType ev) contract (multisigAttributes T ev)

/-! ### What the daemon reads -/

/-- `event.rs:71-73` (`base64_to_utf8`) -/
def base64ToUtf8 (s : Str) : Option Str := (decode64 s).bind decodeUtf8

/-- `event.rs:56-61`: JSON if the text is, otherwise the text as a string -/
def attributeValue (finite : Str → Bool) (s : Str) : Json := (fromStr finite s).getD (.str s)

/-- `event.rs:52-69` (`try_into_kv_pair`, `decode_event_attribute`) -/
def keyValue (finite : Str → Bool) (p : Str × Str) : Option (Str × Json) :=
  match base64ToUtf8 p.1, base64ToUtf8 p.2 with
  | some k, some v => some (k, attributeValue finite v)
  | _, _ => none

/-- `event.rs:32-50` (`TryFrom<abci::Event> for Event`).  The map of attributes is a list here; look-ups take the last
entry with a key, as `Map::from_iter` does. -/
def decodeEvent (finite : Str → Bool) (e : RawEvent) : Option (Abci (List (Str × Json))) :=
  match readAll (keyValue finite) e.attributes with
  | none => none
  | some l => some ⟨e.kind, l⟩

/-- `u64`: an unsigned integer -/
def asU64 : Json → Option Nat
  | .nat n => some n
  | _ => none

/-- `String`: a string -/
def asStr : Json → Option Str
  | .str s => some s
  | _ => none

/-- without a leading `+` -/
def stripPlus : Str → Str
  | [] => []
  | c :: t => if c = '+' then t else c :: t

/-- without a leading `0x` -/
def strip0x : Str → Str
  | a :: b :: t => if a = '0' ∧ b = 'x' then t else a :: b :: t
  | t => t

/-- `Uint64`, `Uint128`, `Uint256` (`cosmwasm-std`): a string of decimal digits with a value in range (a leading `+` is
allowed as by `u64::from_str`) -/
def asUint (max : Nat) (j : Json) : Option Nat :=
  match asStr j with
  | none => none
  | some s =>
    if isDigits (stripPlus s) then
      if Nat.ofDigitChars 10 (stripPlus s) 0 ≤ max then some (Nat.ofDigitChars 10 (stripPlus s) 0) else none
    else none

/-- `HexBinary` (`cosmwasm-std`) -/
def asHex (j : Json) : Option Bytes := (asStr j).bind decodeHex

/-- `H256`, `H160` (`ethers`): hexadecimal digits of the right number, with or without `0x` -/
def fixedHex (n : Nat) (s : Str) : Option Bytes :=
  match decodeHex (strip0x s) with
  | none => none
  | some b => if b.length = n then some b else none

/-- `Vec<T>` -/
def asVec {α : Type} (f : Json → Option α) : Json → Option (List α)
  | .arr l => readAll f l
  | _ => none

/-- a pair -/
def asPair {α β : Type} (f : Json → Option α) (g : Json → Option β) : Json → Option (α × β)
  | .arr [a, b] =>
    match f a, g b with
    | some x, some y => some (x, y)
    | _, _ => none
  | _ => none

/-- The value of a field of a structure with the fields `names`: by name from an object, by position from an array
(derived `Deserialize`). -/
def field (names : List Str) (name : Str) : Json → Option Json
  | .obj l => lastWith name l
  | .arr l => if l.length = names.length then l[names.idxOf name]? else none
  | _ => none

/-- fields of a message -/
def messageFields : List Str := ["tx_id".toList, "event_index".toList, "destination_address".toList,
  "destination_chain".toList, "source_address".toList, "payload_hash".toList]

/-- fields of a worker set confirmation -/
def workerSetFields : List Str := ["tx_id".toList, "event_index".toList, "operators".toList]

/-- fields of the operators -/
def operatorsFields : List Str := ["weights_by_addresses".toList, "threshold".toList]

/-- the readers with which the daemon takes strings of poll events apart -/
def reader (finite : Str → Bool) (T : Texts) : Ampd.Reader where
  attr s := asStr (attributeValue finite s)
  hash := fixedHex 32
  addr := fixedHex 20
  digest := T.digest
  suiAddr := T.suiAddr

/-- `TMAddress` (`ampd/src/types.rs:36-37`) -/
def asAddr (T : Texts) (j : Json) : Option Addr := (asStr j).bind T.parse

namespace Evm

open Amp.Ampd.Evm (Message WorkerSet PollStarted)

/-- `evm_verify_msg.rs:31-39` (`Message`) -/
def deserMessage (L : Lowering) (T : Texts) (j : Json) : Option Message := do
  let tx ← ((field messageFields "tx_id".toList j).bind asStr).bind (fixedHex 32)
  let i ← (field messageFields "event_index".toList j).bind asU64
  let dest ← (field messageFields "destination_address".toList j).bind asStr
  let chain ← ((field messageFields "destination_chain".toList j).bind asStr).bind (ChainName.parse L)
  let src ← ((field messageFields "source_address".toList j).bind asStr).bind (fixedHex 20)
  let hash ← ((field messageFields "payload_hash".toList j).bind asStr).bind (fixedHex 32)
  some ⟨tx, i, dest, chain, src, hash⟩

/-- `evm_verify_worker_set.rs:29-40` (`Operators`, `WorkerSetConfirmation`), `types.rs:15-26` (`U256`) -/
def deserWorkerSet (j : Json) : Option WorkerSet := do
  let tx ← ((field workerSetFields "tx_id".toList j).bind asStr).bind (fixedHex 32)
  let i ← (field workerSetFields "event_index".toList j).bind asU64
  let o ← field workerSetFields "operators".toList j
  let ws ← (field operatorsFields "weights_by_addresses".toList o).bind
    (asVec (asPair (fun j => (asStr j).bind (fixedHex 20)) (asUint u256Max)))
  let t ← (field operatorsFields "threshold".toList o).bind (asUint u256Max)
  some ⟨tx, i, ws, t⟩

/-- `evm_verify_msg.rs:41-53`, `evm_verify_worker_set.rs:42-54` (`PollStartedEvent`); `name` is the field with the
content -/
def deserPoll {α : Type} (L : Lowering) (T : Texts) (name : Str) (content : Json → Option α)
    (a : List (Str × Json)) : Option (PollStarted α) := do
  let contract ← (lastWith "_contract_address".toList a).bind (asAddr T)
  let id ← (lastWith "poll_id".toList a).bind (asUint u64Max)
  let chain ← ((lastWith "source_chain".toList a).bind asStr).bind (ChainName.parse L)
  let gateway ← ((lastWith "source_gateway_address".toList a).bind asStr).bind (fixedHex 20)
  let conf ← (lastWith "confirmation_height".toList a).bind asU64
  let expires ← (lastWith "expires_at".toList a).bind asU64
  let x ← (lastWith name a).bind content
  let ps ← (lastWith "participants".toList a).bind (asVec (asAddr T))
  some ⟨contract, id, chain, gateway, conf, expires, x, ps⟩

/-- `evm_verify_msg.rs:41-53` -/
def deserMessagesPoll (L : Lowering) (T : Texts) : List (Str × Json) → Option (PollStarted (List Message)) :=
  deserPoll L T "messages".toList (asVec (deserMessage L T))

/-- `evm_verify_worker_set.rs:42-54` -/
def deserWorkerSetPoll (L : Lowering) (T : Texts) : List (Str × Json) → Option (PollStarted WorkerSet) :=
  deserPoll L T "worker_set".toList deserWorkerSet

end Evm

namespace Sui

open Amp.Ampd.Sui (Message WorkerSet PollStarted)

/-- `sui_verify_msg.rs:25-33` (`Message`) -/
def deserMessage (L : Lowering) (T : Texts) (j : Json) : Option Message := do
  let tx ← ((field messageFields "tx_id".toList j).bind asStr).bind T.digest
  let i ← (field messageFields "event_index".toList j).bind asU64
  let dest ← (field messageFields "destination_address".toList j).bind asStr
  let chain ← ((field messageFields "destination_chain".toList j).bind asStr).bind (ChainName.parse L)
  let src ← ((field messageFields "source_address".toList j).bind asStr).bind T.suiAddr
  let hash ← ((field messageFields "payload_hash".toList j).bind asStr).bind (fixedHex 32)
  some ⟨tx, i, dest, chain, src, hash⟩

/-- `sui_verify_worker_set.rs:27-38` (`Operators`, `WorkerSetConfirmation`) -/
def deserWorkerSet (T : Texts) (j : Json) : Option WorkerSet := do
  let tx ← ((field workerSetFields "tx_id".toList j).bind asStr).bind T.digest
  let i ← (field workerSetFields "event_index".toList j).bind asU64
  let o ← field workerSetFields "operators".toList j
  let ws ← (field operatorsFields "weights_by_addresses".toList o).bind (asVec (asPair asHex (asUint u128Max)))
  let t ← (field operatorsFields "threshold".toList o).bind (asUint u128Max)
  some ⟨tx, i, ws, t⟩

/-- `sui_verify_msg.rs:35-45`, `sui_verify_worker_set.rs:40-50` (`PollStartedEvent`) -/
def deserPoll {α : Type} (T : Texts) (name : Str) (content : Json → Option α) (a : List (Str × Json)) :
    Option (PollStarted α) := do
  let contract ← (lastWith "_contract_address".toList a).bind (asAddr T)
  let id ← (lastWith "poll_id".toList a).bind (asUint u64Max)
  let gateway ← ((lastWith "source_gateway_address".toList a).bind asStr).bind T.suiAddr
  let x ← (lastWith name a).bind content
  let ps ← (lastWith "participants".toList a).bind (asVec (asAddr T))
  let expires ← (lastWith "expires_at".toList a).bind asU64
  some ⟨contract, id, gateway, x, ps, expires⟩

/-- `sui_verify_msg.rs:35-45` -/
def deserMessagesPoll (L : Lowering) (T : Texts) : List (Str × Json) → Option (PollStarted (List Message)) :=
  deserPoll T "messages".toList (asVec (deserMessage L T))

/-- `sui_verify_worker_set.rs:40-50` -/
def deserWorkerSetPoll (T : Texts) : List (Str × Json) → Option (PollStarted WorkerSet) :=
  deserPoll T "worker_set".toList (deserWorkerSet T)

end Sui

namespace Signing

open Amp.Ampd.Signing (SigningStarted)

/-- `multisig::key::PublicKey` (`key.rs:110-141`): a map with a single key, the variant, and bytes of a length that the
type of key has -/
def asKey (j : Json) : Option PublicKey :=
  match j with
  | .obj [(k, v)] =>
    if k = "ecdsa".toList then
      match asHex v with
      | none => none
      | some b => if b.length = 33 ∨ b.length = 65 then some (.ecdsa b) else none
    else if k = "ed25519".toList then
      match asHex v with
      | none => none
      | some b => if b.length = 32 then some (.ed25519 b) else none
    else none
  | _ => none

/-- one entry of the map of keys; `curve` tells whether bytes are a point of their curve, and gives the key
(`handlers/multisig.rs:39-67`) -/
def deserEntry (T : Texts) (curve : PublicKey → Option Bytes) (p : Str × Json) : Option (Addr × Bytes) := do
  let a ← T.parse p.1
  let pk ← asKey p.2
  let k ← curve pk
  some (a, k)

/-- `handlers/multisig.rs:39-67` (`deserialize_public_keys`).  Simplification: entries stay in the order of the text. -/
def deserKeys (T : Texts) (curve : PublicKey → Option Bytes) : Json → Option (List (Addr × Bytes))
  | .obj l => readAll (deserEntry T curve) l
  | _ => none

/-- `handlers/multisig.rs:27-37` (`SigningStartedEvent`), `tofnd/mod.rs:36-42` (`MessageDigest`) -/
def deserSigning (T : Texts) (curve : PublicKey → Option Bytes) (a : List (Str × Json)) : Option SigningStarted := do
  let contract ← (lastWith "_contract_address".toList a).bind (asAddr T)
  let id ← (lastWith "session_id".toList a).bind asU64
  let ks ← (lastWith "pub_keys".toList a).bind (deserKeys T curve)
  let m ← (lastWith "msg".toList a).bind asHex
  if m.length = 32 then some ⟨contract, id, ks, m⟩ else none

end Signing

/-! ### What the daemon writes -/

/-- `serde_json::to_vec(&ExecuteMsg::Vote {..})` (`evm_verify_msg.rs:129-131` etc.), `ExecuteMsg::SubmitSignature`
(`handlers/multisig.rs:103-107`) -/
def jsonMsg : Ampd.TxMsg → Json
  | .vote id votes => .obj [("vote".toList, .obj [("poll_id".toList, jsonUint id),
      ("votes".toList, .arr (votes.map (fun v => .str (voteName v))))])]
  | .submitSignature id sig => .obj [("submit_signature".toList, .obj [("session_id".toList, jsonUint id),
      ("signature".toList, jsonHex sig)])]

/-- `Deserialize for Vote` -/
def asVote (j : Json) : Option Vote :=
  match asStr j with
  | none => none
  | some s =>
    if s = voteName .succeededOnChain then some .succeededOnChain
    else if s = voteName .failedOnChain then some .failedOnChain
    else if s = voteName .notFound then some .notFound
    else none

end Amp.Wire
