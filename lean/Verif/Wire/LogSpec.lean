import Verif.Wire.Log
import Verif.Chain.RelaySpec

/-!
# Somebody who reads the events

An observer (a relayer, an indexer) sees the events of a chain as the node hands them out, and nothing else.  They are read
here as text: attributes by name, numbers in decimal, binary data in hexadecimal, keys in JSON.
-/

namespace Amp.Wire

open Amp.Encoding (Bytes)
open Amp.Router (ChainName CCId Message)
open Amp.Multisig (PublicKey Signature Session KeyType)
open Amp.Ampd (readAll lastWith)

/-- keys and values, decoded -/
def inClear (e : RawEvent) : Option (List (Str × Str)) :=
  readAll (fun p => match base64ToUtf8 p.1, base64ToUtf8 p.2 with
    | some k, some v => some (k, v)
    | _, _ => none) e.attributes

/-- the attributes of an event of the contract at `a` -/
def noticed (T : Texts) (a : Addr) (e : RawEvent) : Option (Str × List (Str × Str)) :=
  match inClear e with
  | none => none
  | some l => if lastWith "_contract_address".toList l = some (T.text a) then some (e.kind, l) else none

/-! ### The router -/

/-- a message in an event -/
def messageOf (l : List (Str × Str)) : Option Message := do
  let i ← lastWith "id".toList l
  let c ← lastWith "source_chain".toList l
  let s ← lastWith "source_addresses".toList l
  let d ← lastWith "destination_chain".toList l
  let a ← lastWith "destination_addresses".toList l
  let h ← (lastWith "payload_hash".toList l).bind decodeHex
  some ⟨⟨c, i⟩, s, d, a, h⟩

/-- an event of a router -/
def routerEventOf (T : Texts) (k : Str) (l : List (Str × Str)) : Option Router.Event :=
  if k = "wasm-chain_registered".toList then do
    let n ← lastWith "name".toList l
    let g ← (lastWith "gateway".toList l).bind T.parse
    some (.chainRegistered n g)
  else if k = "wasm-gateway_upgraded".toList then do
    let n ← lastWith "chain".toList l
    let g ← (lastWith "gateway_address".toList l).bind T.parse
    some (.gatewayUpgraded n g)
  else if k = "wasm-chain_frozen".toList then (lastWith "name".toList l).map .chainFrozen
  else if k = "wasm-message_routed".toList then (messageOf l).map .messageRouted
  else none

/-- the events of the router at `R` among those of a chain -/
def routerNews (T : Texts) (R : Addr) (es : List RawEvent) : List Router.Event :=
  es.filterMap (fun e => (noticed T R e).bind (fun x => routerEventOf T x.1 x.2))

/-- what is known of the gateways of the router at `R`, whose nexus gateway is `nexus` -/
def watchRouter (T : Texts) (R nexus : Addr) (es : List RawEvent) : Chain.Seen := Chain.Seen.all nexus (routerNews T R es)

/-! ### A multisig contract -/

/-- what an event of a multisig contract tells; of a signature only the bytes -/
inductive Notice
  | started (id : Nat) (workerSet : Str) (keys : List (Addr × PublicKey)) (msg : Bytes)
  | submitted (id : Nat) (a : Addr) (signature : Bytes)
  | completed (id : Nat) (height : Nat)
  | key (a : Addr) (k : PublicKey)
  | allowed (a : Addr)
  | disallowed (a : Addr)
  deriving DecidableEq

/-- keys by address -/
def keysOf (T : Texts) : Json → Option (List (Addr × PublicKey))
  | .obj l => readAll (fun p => match T.parse p.1, Signing.asKey p.2 with
    | some a, some k => some (a, k)
    | _, _ => none) l
  | _ => none

/-- an event of a multisig contract -/
def noticeOf (finite : Str → Bool) (T : Texts) (k : Str) (l : List (Str × Str)) : Option Notice :=
  if k = "wasm-signing_started".toList then do
    let i ← (lastWith "session_id".toList l).bind parseU64
    let w ← lastWith "worker_set_id".toList l
    let ks ← ((lastWith "pub_keys".toList l).bind (fromStr finite)).bind (keysOf T)
    let m ← (lastWith "msg".toList l).bind decodeHex
    some (.started i w ks m)
  else if k = "wasm-signature_submitted".toList then do
    let i ← (lastWith "session_id".toList l).bind parseU64
    let a ← (lastWith "participant".toList l).bind T.parse
    let s ← (lastWith "signature".toList l).bind decodeHex
    some (.submitted i a s)
  else if k = "wasm-signing_completed".toList then do
    let i ← (lastWith "session_id".toList l).bind parseU64
    let h ← (lastWith "completed_at".toList l).bind parseU64
    some (.completed i h)
  else if k = "wasm-public_key_registered".toList then do
    let a ← ((lastWith "worker".toList l).bind (fromStr finite)).bind (asAddr T)
    let k ← ((lastWith "public_key".toList l).bind (fromStr finite)).bind Signing.asKey
    some (.key a k)
  else if k = "wasm-caller_authorized".toList then ((lastWith "contract_address".toList l).bind T.parse).map .allowed
  else if k = "wasm-caller_unauthorized".toList then ((lastWith "contract_address".toList l).bind T.parse).map .disallowed
  else none

/-- what is known of a multisig contract -/
structure Known where
  keys : KV (Addr × KeyType) Bytes
  callers : KV Addr Unit
  sessions : KV Nat Session
  members : Nat → List (Addr × PublicKey)
  signatures : Nat → OMap Addr Signature

/-- before the first event -/
def Known.nothing : Known := ⟨KV.empty, KV.empty, KV.empty, fun _ => [], fun _ => []⟩

/-- One event.  Whether 64 bytes are an ECDSA or an Ed25519 signature depends on the key of the participant. -/
def Known.hear (k : Known) : Notice → Known
  | .started i w ks m => { k with
      sessions := k.sessions.set i ⟨i, w, m, .pending⟩
      members := fun j => if j = i then ks else k.members j }
  | .submitted i a s =>
    match (k.members i).find? (fun p => p.1 = a) with
    | none => k
    | some p =>
      match Signature.tryFrom p.2.keyType s with
      | .error _ => k
      | .ok sig => { k with signatures := fun j => if j = i then (k.signatures i).set a sig else k.signatures j }
  | .completed i h =>
    match k.sessions i with
    | none => k
    | some se => { k with sessions := k.sessions.set i { se with state := .completed h } }
  | .key a pk => { k with keys := k.keys.set (a, pk.keyType) pk.bytes }
  | .allowed a => { k with callers := k.callers.set a () }
  | .disallowed a => { k with callers := k.callers.erase a }

/-- what the events of the multisig contract at `M` among those of a chain tell -/
def multisigNews (finite : Str → Bool) (T : Texts) (M : Addr) (es : List RawEvent) : List Notice :=
  es.filterMap (fun e => (noticed T M e).bind (fun x => noticeOf finite T x.1 x.2))

/-- what is known of the multisig contract at `M` -/
def watchMultisig (finite : Str → Bool) (T : Texts) (M : Addr) (es : List RawEvent) : Known :=
  (multisigNews finite T M es).foldl Known.hear .nothing

end Amp.Wire
