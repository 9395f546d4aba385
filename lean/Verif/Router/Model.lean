import Verif.Base.Prelude
import Verif.Router.Types

/-!
# The router (`contracts/connection-router/src`)
-/

namespace Amp.Router

/-- `state.rs:378-387`: a `FlagSet<GatewayDirection>` is a `u8`, the flags are its bits. -/
abbrev Flags := BitVec 8

/-- `state.rs:381-386` (`GatewayDirection`) -/
inductive Direction
  | none
  | incoming
  | outgoing
  | bidirectional
  deriving DecidableEq, Repr

/-- `state.rs:381-386` (discriminants) -/
def Direction.bits : Direction → Flags
  | .none => 0
  | .incoming => 1
  | .outgoing => 2
  | .bidirectional => 1 ||| 2

/-- `FlagSet::contains` of the `flagset` crate -/
def Flags.contains (a b : Flags) : Bool := a &&& b == b

/-- `state.rs:371-376` (`ChainEndpoint`; `Gateway` is its address, `366-369`) -/
structure ChainEndpoint where
  name : ChainName
  gateway : Addr
  frozen : Flags
  deriving DecidableEq, Repr

/-- `state.rs:390-392` -/
def ChainEndpoint.incomingFrozen (e : ChainEndpoint) : Bool :=
  Flags.contains e.frozen (Direction.bits .incoming)

/-- `state.rs:394-396` -/
def ChainEndpoint.outgoingFrozen (e : ChainEndpoint) : Bool :=
  Flags.contains e.frozen (Direction.bits .outgoing)

/-- `state.rs:86-91` (`Config`) -/
structure Config where
  admin : Addr
  governance : Addr
  nexusGateway : Addr
  deriving DecidableEq, Repr

/-- Storage of the contract.  `chains` is the `IndexedMap` of `state.rs:138-151`, as a list of its
entries; its `gateway` index is recomputed from the entries.  The order of entries is not observable. -/
structure State where
  config : Config
  chains : List (ChainName × ChainEndpoint)
  deriving DecidableEq, Repr

/-- `contract.rs:13-42` (`instantiate`) -/
def init (cfg : Config) : State := { config := cfg, chains := [] }

/-- `IndexedMap::may_load` -/
def lookup (l : List (ChainName × ChainEndpoint)) (n : ChainName) : Option ChainEndpoint :=
  match l with
  | [] => none
  | (k, e) :: t => if k = n then some e else lookup t n

/-- `IndexedMap::save` -/
def store (l : List (ChainName × ChainEndpoint)) (n : ChainName) (e : ChainEndpoint) :
    List (ChainName × ChainEndpoint) :=
  match l with
  | [] => [(n, e)]
  | (k, e') :: t => if k = n then (n, e) :: t else (k, e') :: store t n e

/-- `error.rs` -/
inductive Err
  | unauthorized
  | gatewayAlreadyRegistered
  | chainAlreadyExists
  | chainNotFound
  | gatewayNotRegistered
  | chainFrozen (chain : ChainName)
  | wrongSourceChain
  /-- `panic!("More than one gateway for chain")` -/
  | panic
  deriving DecidableEq, Repr

/-- `msg.rs` (`ExecuteMsg`).  Addresses arrive as strings and must pass `addr_validate`; only valid ones
are represented. -/
inductive Msg
  | registerChain (chain : ChainName) (gateway : Addr)
  | upgradeGateway (chain : ChainName) (gateway : Addr)
  | freezeChain (chain : ChainName) (d : Direction)
  | unfreezeChain (chain : ChainName) (d : Direction)
  | routeMessages (msgs : List Message)
  deriving DecidableEq

/-- a call of the contract -/
structure Call where
  sender : Addr
  msg : Msg
  deriving DecidableEq

/-- `WasmMsg::Execute { contract_addr, msg: RouteMessages(msgs) }` -/
structure Dispatch where
  contract : Addr
  msgs : List Message
  deriving DecidableEq, Repr

/-- `events.rs` -/
inductive Event
  | chainRegistered (name : ChainName) (gateway : Addr)
  | gatewayUpgraded (name : ChainName) (gateway : Addr)
  | chainFrozen (name : ChainName)
  | messageRouted (m : Message)
  deriving DecidableEq

/-- `Response` -/
structure Resp where
  dispatched : List Dispatch := []
  events : List Event := []
  deriving DecidableEq

/-- `state.rs:119-135` (`load_chain_by_gateway`) -/
def loadChainByGateway (s : State) (gw : Addr) : Except Err (Option ChainEndpoint) :=
  match s.chains.filter (fun e => e.2.gateway = gw) with
  | [] => .ok none
  | [(_, e)] => .ok (some e)
  | _ => .error .panic

/-- `contract/query.rs:9-14` (`get_chain_info`), `state.rs:71-78` -/
def getChainInfo (s : State) (n : ChainName) : Option ChainEndpoint := lookup s.chains n

/-- `execute.rs:18-37` (`register_chain`) -/
def registerChain (s : State) (n : ChainName) (gw : Addr) : Except Err (State × Resp) :=
  match loadChainByGateway s gw with
  | .error e => .error e
  | .ok (some _) => .error .gatewayAlreadyRegistered
  | .ok none =>
    match lookup s.chains n with
    | some _ => .error .chainAlreadyExists
    | none =>
      .ok ({ s with chains := store s.chains n ⟨n, gw, Direction.bits .none⟩ },
        { events := [.chainRegistered n gw] })

/-- `execute.rs:50-74` (`upgrade_gateway`) -/
def upgradeGateway (s : State) (n : ChainName) (gw : Addr) : Except Err (State × Resp) :=
  match loadChainByGateway s gw with
  | .error e => .error e
  | .ok (some _) => .error .gatewayAlreadyRegistered
  | .ok none =>
    match lookup s.chains n with
    | none => .error .chainNotFound
    | some e =>
      .ok ({ s with chains := store s.chains n { e with gateway := gw } },
        { events := [.gatewayUpgraded n gw] })

/-- `execute.rs:76-89` (`freeze_chain`) -/
def freezeChain (s : State) (n : ChainName) (d : Direction) : Except Err (State × Resp) :=
  match lookup s.chains n with
  | none => .error .chainNotFound
  | some e =>
    .ok ({ s with chains := store s.chains n { e with frozen := e.frozen ||| d.bits } },
      { events := [.chainFrozen n] })

/-- `execute.rs:91-104` (`unfreeze_chain`; it too emits `ChainFrozen`) -/
def unfreezeChain (s : State) (n : ChainName) (d : Direction) : Except Err (State × Resp) :=
  match lookup s.chains n with
  | none => .error .chainNotFound
  | some e =>
    .ok ({ s with chains := store s.chains n { e with frozen := e.frozen &&& ~~~ d.bits } },
      { events := [.chainFrozen n] })

/-- `execute.rs:126-152` (`validate_msgs`) -/
def validateMsgs (s : State) (sender : Addr) (msgs : List Message) : Except Err (List Message) :=
  if sender = s.config.nexusGateway then .ok msgs
  else
    match loadChainByGateway s sender with
    | .error e => .error e
    | .ok none => .error .gatewayNotRegistered
    | .ok (some src) =>
      if src.incomingFrozen then .error (.chainFrozen src.name)
      else if msgs.any (fun m => m.ccId.chain ≠ src.name) then .error .wrongSourceChain
      else .ok msgs

/-- `Itertools::group_by` (`execute.rs:163`): maximal runs of consecutive elements with equal keys -/
def groupRuns {α κ : Type} [DecidableEq κ] (key : α → κ) : List α → List (κ × List α)
  | [] => []
  | a :: t =>
    match groupRuns key t with
    | [] => [(key a, [a])]
    | (k, g) :: rest => if key a = k then (k, a :: g) :: rest else (key a, [a]) :: (k, g) :: rest

/-- the closure of `execute.rs:165-188` -/
def dispatchGroup (s : State) (sender : Addr) (g : ChainName × List Message) : Except Err Dispatch :=
  match lookup s.chains g.1 with
  | some e =>
    if e.outgoingFrozen then .error (.chainFrozen e.name) else .ok ⟨e.gateway, g.2⟩
  | none =>
    if sender ≠ s.config.nexusGateway then .ok ⟨s.config.nexusGateway, g.2⟩
    else .error .chainNotFound

/-- `execute.rs:154-195` (`route_messages`) -/
def routeMessages (s : State) (sender : Addr) (msgs : List Message) : Except Err (State × Resp) :=
  match validateMsgs s sender msgs with
  | .error e => .error e
  | .ok msgs =>
    match mapE (dispatchGroup s sender) (groupRuns (·.destinationChain) msgs) with
    | .error e => .error e
    | .ok ds => .ok (s, { dispatched := ds, events := msgs.map .messageRouted })

/-- `contract.rs:44-80` (`execute`), `execute.rs:106-120` (`require_admin`, `require_governance`) -/
def exec (s : State) (c : Call) : Except Err (State × Resp) :=
  match c.msg with
  | .registerChain n gw =>
    if s.config.governance ≠ c.sender then .error .unauthorized else registerChain s n gw
  | .upgradeGateway n gw =>
    if s.config.governance ≠ c.sender then .error .unauthorized else upgradeGateway s n gw
  | .freezeChain n d =>
    if s.config.admin ≠ c.sender then .error .unauthorized else freezeChain s n d
  | .unfreezeChain n d =>
    if s.config.admin ≠ c.sender then .error .unauthorized else unfreezeChain s n d
  | .routeMessages ms => routeMessages s c.sender ms

end Amp.Router
