import Verif.Base.Hex
import Verif.Router.Types

/-!
# The nexus gateway (`contracts/nexus-gateway/src`)
-/

namespace Amp.Nexus

open Amp.Router

/-- `nexus.rs:14-24` (`Message`).  `sourceTxId` is a `nonempty::Vec<u8>`, `sourceTxIndex` a `u64`. -/
structure NexusMsg where
  sourceChain : ChainName
  sourceAddress : Str
  destinationChain : ChainName
  destinationAddress : Str
  payloadHash : List Nat
  sourceTxId : ByteList
  sourceTxIndex : Nat
  deriving DecidableEq, Repr

/-- what the Rust types guarantee about a nexus message -/
def NexusMsg.WellTyped (m : NexusMsg) : Prop :=
  m.sourceTxId ≠ [] ∧ IsBytes m.sourceTxId ∧ m.sourceTxIndex ≤ u64Max

/-- `str::trim_start_matches("0x")`: removes every leading repetition -/
def trim0x : Str → Str
  | '0' :: 'x' :: t => trim0x t
  | s => s

/-- `nexus.rs:28-46` (`parse_message_id`) -/
def parseMessageId (id : Str) : Option (ByteList × Nat) :=
  match splitOn idSep id with
  | [a, b] =>
    match decodeHex (trim0x a) with
    | none => none
    | some [] => none
    | some (x :: t) =>
      match parseU64 b with
      | none => none
      | some n => some (x :: t, n)
  | _ => none

/-- `nexus.rs:48-66` (`From<connection_router::Message> for Message`) -/
def toNexus (m : Message) : NexusMsg :=
  let p := match parseMessageId m.ccId.id with
    | some p => p
    | none => (utf8Bytes m.ccId.id, u64Max)
  { sourceChain := m.ccId.chain
    sourceAddress := m.sourceAddress
    destinationChain := m.destinationChain
    destinationAddress := m.destinationAddress
    payloadHash := m.payloadHash
    sourceTxId := p.1
    sourceTxIndex := p.2 }

/-- `nexus.rs:68-87` (`From<Message> for connection_router::Message`) -/
def toRouter (n : NexusMsg) : Message :=
  { ccId := ⟨n.sourceChain, encodeHex n.sourceTxId ++ idSep :: showNat n.sourceTxIndex⟩
    sourceAddress := n.sourceAddress
    destinationChain := n.destinationChain
    destinationAddress := n.destinationAddress
    payloadHash := n.payloadHash }

/-- `state.rs:60-64` (`Config`) -/
structure Config where
  nexus : Addr
  router : Addr
  deriving DecidableEq, Repr

/-- storage: `state.rs:10-11`; `ROUTED_MESSAGE_IDS` is a set of ids -/
structure State where
  config : Config
  routed : KV CCId Unit

/-- `contract.rs:13-28` (`instantiate`) -/
def init (cfg : Config) : State := ⟨cfg, KV.empty⟩

/-- `msg.rs` (`ExecuteMsg`) -/
inductive Msg
  | routeMessages (ms : List Message)
  | routeMessagesFromNexus (ns : List NexusMsg)
  deriving DecidableEq

/-- a call -/
structure Call where
  sender : Addr
  msg : Msg

/-- `error.rs` -/
inductive Err
  | unauthorized
  deriving DecidableEq, Repr

/-- The response: `toModule` are the custom messages handed to the nexus module, `toRouter` the
`RouteMessages` calls (contract, batch).  `forwarded` is a ghost field: the router messages that the
entries of `toModule` were made from, in the same order. -/
structure Resp where
  toModule : List NexusMsg := []
  toRouter : List (Addr × List Message) := []
  forwarded : List Message := []
  deriving DecidableEq, Repr

/-- `execute.rs:16-39` (`route_to_router`) -/
def routeToRouter (s : State) (sender : Addr) (ns : List NexusMsg) : Except Err (State × Resp) :=
  if sender ≠ s.config.nexus then .error .unauthorized
  else
    let ms := ns.map toRouter
    if ms = [] then .ok (s, {})
    else .ok (s, { toRouter := [(s.config.router, ms)] })

/-- `execute.rs:61-62`, `state.rs:44-48`: mark every message as routed -/
def markAll (kv : KV CCId Unit) (ms : List Message) : KV CCId Unit :=
  ms.foldl (fun kv m => kv.set m.ccId ()) kv

/-- `execute.rs:41-68` (`route_to_nexus`): first drop the messages already marked, then mark the
remaining ones and forward them. -/
def routeToNexus (s : State) (sender : Addr) (ms : List Message) : Except Err (State × Resp) :=
  if sender ≠ s.config.router then .error .unauthorized
  else
    let fresh := ms.filter (fun m => (s.routed m.ccId).isNone)
    .ok ({ s with routed := markAll s.routed fresh },
      { toModule := fresh.map toNexus, forwarded := fresh })

/-- `contract.rs:30-49` (`execute`) -/
def exec (s : State) (c : Call) : Except Err (State × Resp) :=
  match c.msg with
  | .routeMessages ms => routeToNexus s c.sender ms
  | .routeMessagesFromNexus ns => routeToRouter s c.sender ns

end Amp.Nexus
