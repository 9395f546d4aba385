import Verif.Wire.Events
import Verif.Chain.Model

/-!
# The events of all contracts, as the node hands them out

`Wire/Events.lean` has the events of voting verifiers and multisig contracts.  Here are those of the router, the gateways and
the provers, and the stream of all events of a chain.  The nexus gateway, the service registry and the rewards contract emit
none.  Events of instantiation are left out (they tell nothing that is not in the configuration).

Assumed of the chain: keys and values of attributes are handed out as the contract wrote them.
-/

namespace Amp.Wire

open Amp.Router (Message)
open Amp.Chain (Act Entry)

/-- `From<Message> for Vec<Attribute>` (`connection-router/src/events.rs:104-120`) -/
def messageAttributes (m : Message) : List (Str × Str) :=
  [("id".toList, m.ccId.id), ("source_chain".toList, m.ccId.chain), ("source_addresses".toList, m.sourceAddress),
    ("destination_chain".toList, m.destinationChain), ("destination_addresses".toList, m.destinationAddress),
    ("payload_hash".toList, encodeHex m.payloadHash)]

/-- names of the events of the router (`connection-router/src/events.rs:54-131`); `unfreeze_chain` too emits
`chain_frozen` (`contract/execute.rs:91-104`) -/
def routerKind : Router.Event → Str
  | .chainRegistered _ _ => "wasm-chain_registered".toList
  | .gatewayUpgraded _ _ => "wasm-gateway_upgraded".toList
  | .chainFrozen _ => "wasm-chain_frozen".toList
  | .messageRouted _ => "wasm-message_routed".toList

/-- their attributes (`connection-router/src/events.rs:54-131`) -/
def routerAttributes (T : Texts) : Router.Event → List (Str × Str)
  | .chainRegistered n g => [("name".toList, n), ("gateway".toList, T.text g)]
  | .gatewayUpgraded n g => [("chain".toList, n), ("gateway_address".toList, T.text g)]
  | .chainFrozen n => [("name".toList, n)]
  | .messageRouted m => messageAttributes m

/-- `From<GatewayEvent> for Event` (`gateway/src/events.rs:12-26`); the other two are never emitted -/
def gatewayKind : Gateway.Event → Str
  | .messageRouted _ => "wasm-message_routed".toList
  | .messageRoutingFailed _ => "wasm-message_routing_failed".toList

/-- `gateway/src/events.rs:12-26` -/
def gatewayAttributes : Gateway.Event → List (Str × Str)
  | .messageRouted m => messageAttributes m
  | .messageRoutingFailed m => messageAttributes m

/-- `From<Event> for cosmwasm_std::Event` (`multisig-prover/src/events.rs:13-34`): session and batch -/
def proverAttributes (e : Nat × Encoding.Bytes) : List (Str × Str) :=
  [("command_batch_id".toList, (jsonHex e.2).render), ("multisig_session_id".toList, (jsonUint e.1).render)]

/-- the events of a call of the contract at `a` -/
def actEvents (T : Texts) (a : Addr) : Act → List RawEvent
  | .verifier _ r => r.event.toList.map (publishVerifier T a)
  | .gateway _ r => r.events.map (fun ev => publish T (gatewayKind ev) a (gatewayAttributes ev))
  | .router _ r => r.events.map (fun ev => publish T (routerKind ev) a (routerAttributes T ev))
  | .multisig _ r => r.events.map (publishMultisig T a)
  | .prover _ _ r => r.event.toList.map (fun ev => publish T "wasm-proof_under_construction".toList a (proverAttributes ev))
  | .nexus _ _ => []
  | .registry _ _ => []
  | .rewards _ _ => []

/-- the events of a chain, in the order of the calls -/
def eventStream (T : Texts) (l : List Entry) : List RawEvent := l.flatMap (fun e => actEvents T e.p.target e.act)

end Amp.Wire
