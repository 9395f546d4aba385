import Verif.Base.Prelude
import Verif.Router.Types

/-!
# The gateway (`contracts/gateway/src`)
-/

namespace Amp.Gateway

open Amp.Router

/-- `state.rs:18-22` (`Config`) -/
structure Config where
  verifier : Addr
  router : Addr
  deriving DecidableEq, Repr

/-- storage: `state.rs:24-25`.  The keys of `OUTGOING_MESSAGES` are typed ids; their byte
encoding is left out. -/
structure State where
  config : Config
  outgoing : KV CCId Message

/-- `contract.rs:14-28` (`instantiate`) -/
def init (cfg : Config) : State := { config := cfg, outgoing := KV.empty }

/-- `error.rs` -/
inductive Err
  | duplicateMessageIds
  | queryVerifier
  | loadOutgoingMessage
  deriving DecidableEq, Repr

/-- `msg.rs` (`ExecuteMsg`) -/
inductive Msg
  | verifyMessages (ms : List Message)
  | routeMessages (ms : List Message)
  deriving DecidableEq

/-- A call: sender, message, and how the configured verifier answers `IsVerified` queries during the
call (`none`: the query fails). -/
structure Call where
  sender : Addr
  verifier : List Message → Option (List (CCId × Bool))
  msg : Msg

/-- messages sent to other contracts -/
inductive Out
  | verify (contract : Addr) (ms : List Message)
  | route (contract : Addr) (ms : List Message)
  deriving DecidableEq, Repr

/-- `events.rs` (`GatewayEvent`) -/
inductive Event
  | messageRouted (m : Message)
  | messageRoutingFailed (m : Message)
  deriving DecidableEq, Repr

/-- `Response` -/
structure Resp where
  out : List Out := []
  events : List Event := []
  deriving DecidableEq, Repr

/-- `execute.rs:150-164` (`ensure_unique_ids`): `Itertools::duplicates` is non-empty -/
def hasDuplicates : List CCId → Bool
  | [] => false
  | a :: t => a ∈ t || hasDuplicates t

/-- `execute.rs:142`: `into_iter().collect::<HashMap<_, _>>()`, later entries overwrite earlier ones -/
def collectMap (l : List (CCId × Bool)) : KV CCId Bool :=
  l.foldl (fun kv e => kv.set e.1 e.2) KV.empty

/-- `execute.rs:146`: `is_verified.get(&msg.cc_id).copied().unwrap_or(false)` -/
def isVerifiedIn (kv : KV CCId Bool) (m : Message) : Bool :=
  match kv m.ccId with
  | some b => b
  | none => false

/-- `execute.rs:132-147` (`partition_by_verified`): (verified, unverified) -/
def partitionByVerified (verifier : List Message → Option (List (CCId × Bool))) (ms : List Message) :
    Except Err (List Message × List Message) :=
  match verifier ms with
  | none => .error .queryVerifier
  | some ans => .ok (ms.partition (isVerifiedIn (collectMap ans)))

/-- `execute.rs:49-73` (`verify_messages`) -/
def verifyMessages (s : State) (c : Call) (ms : List Message) : Except Err (State × Resp) :=
  if ms = [] then .ok (s, {})
  else if hasDuplicates (ms.map (·.ccId)) then .error .duplicateMessageIds
  else
    match partitionByVerified c.verifier ms with
    | .error e => .error e
    | .ok (_, unverified) =>
      if unverified = [] then .ok (s, {})
      else .ok (s, { out := [.verify s.config.verifier unverified] })

/-- the loop of `execute.rs:90-92` -/
def saveAll (kv : KV CCId Message) (ms : List Message) : KV CCId Message :=
  ms.foldl (fun kv m => kv.set m.ccId m) kv

/-- `execute.rs:87-98` (`route_outgoing_messages`) -/
def routeOutgoing (s : State) (ms : List Message) : Except Err (State × Resp) :=
  if hasDuplicates (ms.map (·.ccId)) then .error .duplicateMessageIds
  else .ok ({ s with outgoing := saveAll s.outgoing ms }, { events := ms.map .messageRouted })

/-- `execute.rs:100-130` (`route_incoming_messages`) -/
def routeIncoming (s : State) (c : Call) (ms : List Message) : Except Err (State × Resp) :=
  if hasDuplicates (ms.map (·.ccId)) then .error .duplicateMessageIds
  else
    match partitionByVerified c.verifier ms with
    | .error e => .error e
    | .ok (verified, unverified) =>
      .ok (s,
        { events := verified.map .messageRouted ++ unverified.map .messageRoutingFailed
          out := if verified = [] then [] else [.route s.config.router verified] })

/-- `contract.rs:30-43` (`execute`), `execute.rs:75-85` (`route_messages`) -/
def exec (s : State) (c : Call) : Except Err (State × Resp) :=
  match c.msg with
  | .verifyMessages ms => verifyMessages s c ms
  | .routeMessages ms =>
    if c.sender = s.config.router then routeOutgoing s ms else routeIncoming s c ms

/-- one id of `query.rs:40-47` -/
def loadOutgoing (s : State) (id : CCId) : Except Err Message :=
  match s.outgoing id with
  | none => .error .loadOutgoingMessage
  | some m => .ok m

/-- `query.rs:35-50` (`get_messages`) -/
def getMessages (s : State) (ids : List CCId) : Except Err (List Message) := mapE (loadOutgoing s) ids

end Amp.Gateway
