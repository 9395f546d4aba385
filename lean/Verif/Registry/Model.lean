import Verif.Registry.State
import Mathlib.Order.Nat

/-!
# The service registry (`contracts/service-registry/src`)

Addresses are natural numbers; their order stands for the byte order of the address strings.
-/

namespace Amp.Registry

open Amp.Router

/-- a coin (denomination, amount) -/
abbrev Coin := Str × Nat

/-- `state.rs:20-30` (`Service`); the fields that nothing reads are left out (`name` is the key,
`service_contract`, `min_num_workers`, `max_num_workers`, `description`). -/
structure Service where
  minBond : Nat
  denom : Str
  unbondingDays : Nat
  deriving DecidableEq, Repr

/-- Storage (`state.rs:9-14, 131-136`).  `services` is an association list.  `workers` maps a service
name to its workers by address; `perChain` maps (service, chain) to the addresses that declared
support (composite keys, read by prefix in ascending address order). -/
structure State where
  governance : Addr
  services : List (Str × Service)
  workers : KV Str (OMap Addr Worker)
  perChain : KV (Str × ChainName) (OMap Addr Unit)

/-- `contract.rs:19-32` (`instantiate`) -/
def init (gov : Addr) : State := ⟨gov, [], KV.empty, KV.empty⟩

/-- `error.rs`; `panic` is an arithmetic overflow (aborts and reverts the transaction) -/
inductive Err
  | unauthorized
  | serviceAlreadyExists
  | serviceNotFound
  | wrongDenom
  | invalidBondingState
  | workerNotFound
  | panic
  deriving DecidableEq, Repr

/-- `msg.rs` (`ExecuteMsg`).  Worker addresses are taken to be valid (`addr_validate`). -/
inductive Msg
  | registerService (name : Str) (sv : Service)
  | authorizeWorkers (workers : List Addr) (name : Str)
  | unauthorizeWorkers (workers : List Addr) (name : Str)
  | declareChainSupport (name : Str) (chains : List ChainName)
  | bondWorker (name : Str)
  | unbondWorker (name : Str)
  | claimStake (name : Str)
  deriving DecidableEq, Repr

/-- a call: sender, coins sent along, block time in nanoseconds -/
structure Call where
  sender : Addr
  funds : List Coin
  time : Nat
  msg : Msg
  deriving DecidableEq, Repr

/-- the response: bank transfers (recipient, coin) -/
structure Resp where
  sends : List (Addr × Coin) := []
  deriving DecidableEq, Repr

/-- `SERVICES.may_load` -/
def findService (l : List (Str × Service)) (name : Str) : Option Service :=
  match l with
  | [] => none
  | (n, sv) :: t => if n = name then some sv else findService t name

/-- the workers of a service -/
def workersOf (s : State) (name : Str) : OMap Addr Worker :=
  match s.workers name with
  | none => []
  | some m => m

/-- `WORKERS.may_load` -/
def findWorker (s : State) (name : Str) (a : Addr) : Option Worker := (workersOf s name).get? a

/-- `WORKERS.save` -/
def saveWorker (s : State) (name : Str) (a : Addr) (w : Worker) : State :=
  { s with workers := s.workers.set name ((workersOf s name).set a w) }

/-- `state.rs:76-91` (`BondingState::add_bond`); the 128 bit addition panics on overflow -/
def BondingState.addBond (b : BondingState) (toAdd : Nat) : Except Err BondingState :=
  match b with
  | .bonded n | .requestedUnbonding n | .unbonding n _ =>
    if n + toAdd > u128Max then .error .panic
    else if n + toAdd = 0 then .error .invalidBondingState
    else .ok (.bonded (n + toAdd))
  | .unbonded => if toAdd = 0 then .error .invalidBondingState else .ok (.bonded toAdd)

/-- `state.rs:93-107` (`BondingState::unbond`) -/
def BondingState.unbond (b : BondingState) (canUnbond : Bool) (time : Nat) : Except Err BondingState :=
  match b with
  | .bonded n | .requestedUnbonding n =>
    if canUnbond then .ok (.unbonding n time) else .ok (.requestedUnbonding n)
  | _ => .error .invalidBondingState

/-- nanoseconds in a day (`Timestamp::plus_days`) -/
def dayNanos : Nat := 24 * 60 * 60 * 1000000000

/-- `state.rs:108-122` (`BondingState::claim_stake`); `plus_days` panics if the time leaves 64 bits -/
def BondingState.claimStake (b : BondingState) (time days : Nat) :
    Except Err (BondingState × Nat) :=
  match b with
  | .unbonding n t =>
    if t + days * dayNanos > u64Max then .error .panic
    else if t + days * dayNanos ≤ time then .ok (.unbonded, n)
    else .error .invalidBondingState
  | _ => .error .invalidBondingState

/-- `contract.rs:128-163` (`register_service`) -/
def registerService (s : State) (name : Str) (sv : Service) : Except Err (State × Resp) :=
  match findService s.services name with
  | none => .ok ({ s with services := s.services ++ [(name, sv)] }, {})
  | some _ => .error .serviceAlreadyExists

/-- one iteration of `contract.rs:175-194` -/
def setAuth (name : Str) (auth : AuthState) (s : State) (a : Addr) : State :=
  match findWorker s name a with
  | some w => saveWorker s name a { w with auth := auth }
  | none => saveWorker s name a ⟨a, .unbonded, auth, name⟩

/-- `contract.rs:165-197` (`update_worker_authorization_status`) -/
def updateAuth (s : State) (workers : List Addr) (name : Str) (auth : AuthState) :
    Except Err (State × Resp) :=
  match findService s.services name with
  | none => .error .serviceNotFound
  | some _ => .ok (workers.foldl (setAuth name auth) s, {})

/-- `contract.rs:208-216`: the bond sent with a call -/
def bondOf (funds : List Coin) (denom : Str) : Except Err Nat :=
  if funds = [] then .ok 0
  else
    match funds.find? (fun c => c.1 = denom) with
    | none => .error .wrongDenom
    | some c => .ok c.2

/-- `contract.rs:199-238` (`bond_worker`) -/
def bondWorker (s : State) (c : Call) (name : Str) : Except Err (State × Resp) :=
  match findService s.services name with
  | none => .error .serviceNotFound
  | some sv =>
    match bondOf c.funds sv.denom with
    | .error e => .error e
    | .ok bond =>
      match findWorker s name c.sender with
      | some w =>
        match w.bonding.addBond bond with
        | .error e => .error e
        | .ok b => .ok (saveWorker s name c.sender { w with bonding := b }, {})
      | none =>
        .ok (saveWorker s name c.sender ⟨c.sender, .bonded bond, .notAuthorized, name⟩, {})

/-- one iteration of `contract.rs:254-256` -/
def declareOne (name : Str) (a : Addr) (pc : KV (Str × ChainName) (OMap Addr Unit))
    (chain : ChainName) : KV (Str × ChainName) (OMap Addr Unit) :=
  match pc (name, chain) with
  | none => pc.set (name, chain) (OMap.set [] a ())
  | some m => pc.set (name, chain) (OMap.set m a ())

/-- `contract.rs:240-259` (`declare_chains_support`) -/
def declareChains (s : State) (c : Call) (name : Str) (chains : List ChainName) :
    Except Err (State × Resp) :=
  match findService s.services name with
  | none => .error .serviceNotFound
  | some _ =>
    match findWorker s name c.sender with
    | none => .error .workerNotFound
    | some _ => .ok ({ s with perChain := chains.foldl (declareOne name c.sender) s.perChain }, {})

/-- `contract.rs:261-289` (`unbond_worker`); `can_unbond` is the constant `true` -/
def unbondWorker (s : State) (c : Call) (name : Str) : Except Err (State × Resp) :=
  match findService s.services name with
  | none => .error .serviceNotFound
  | some _ =>
    match findWorker s name c.sender with
    | none => .error .workerNotFound
    | some w =>
      match w.bonding.unbond true c.time with
      | .error e => .error e
      | .ok b => .ok (saveWorker s name c.sender { w with bonding := b }, {})

/-- `contract.rs:291-326` (`claim_stake`) -/
def claimStake (s : State) (c : Call) (name : Str) : Except Err (State × Resp) :=
  match findService s.services name with
  | none => .error .serviceNotFound
  | some sv =>
    match findWorker s name c.sender with
    | none => .error .workerNotFound
    | some w =>
      match w.bonding.claimStake c.time sv.unbondingDays with
      | .error e => .error e
      | .ok (b, released) =>
        .ok (saveWorker s name c.sender { w with bonding := b },
          { sends := [(c.sender, (sv.denom, released))] })

/-- `contract.rs:34-110` (`execute`), `119-125` (`require_governance`) -/
def exec (s : State) (c : Call) : Except Err (State × Resp) :=
  match c.msg with
  | .registerService name sv =>
    if s.governance ≠ c.sender then .error .unauthorized else registerService s name sv
  | .authorizeWorkers ws name =>
    if s.governance ≠ c.sender then .error .unauthorized else updateAuth s ws name .authorized
  | .unauthorizeWorkers ws name =>
    if s.governance ≠ c.sender then .error .unauthorized else updateAuth s ws name .notAuthorized
  | .declareChainSupport name chains => declareChains s c name chains
  | .bondWorker name => bondWorker s c name
  | .unbondWorker name => unbondWorker s c name
  | .claimStake name => claimStake s c name

/-- the addresses that declared support (`contract.rs:363-365`) -/
def declared (s : State) (name : Str) (chain : ChainName) : List Addr :=
  match s.perChain (name, chain) with
  | none => []
  | some m => m.keys

/-- `contract.rs:366` (`WORKERS.load`): fails if missing -/
def loadWorker (s : State) (name : Str) (a : Addr) : Except Err Worker :=
  match findWorker s name a with
  | none => .error .workerNotFound
  | some w => .ok w

/-- `contract.rs:369-373`: the two filters -/
def isActive (sv : Service) (w : Worker) : Bool :=
  (match w.bonding with
    | .bonded n => decide (sv.minBond ≤ n)
    | _ => false) && decide (w.auth = .authorized)

/-- `contract.rs:354-377` (`get_active_workers`) -/
def getActiveWorkers (s : State) (name : Str) (chain : ChainName) : Except Err (List Worker) :=
  match findService s.services name with
  | none => .error .serviceNotFound
  | some sv =>
    match mapE (loadWorker s name) (declared s name chain) with
    | .error e => .error e
    | .ok ws => .ok (ws.filter (isActive sv))

/-- `contract.rs:379-390` (`query::get_worker`); `validate` is `addr_validate`, arbitrary -/
def getWorker (validate : Str → Option Addr) (s : State) (serviceName worker : Str) :
    Except Err Worker :=
  match validate worker with
  | none => .error .panic
  | some a => loadWorker s serviceName a

/-- `contract.rs:337-340`: the entry point for `GetWorker { service_name, worker }`, which passes the
arguments of `query::get_worker` in the wrong order -/
def queryGetWorker (validate : Str → Option Addr) (s : State) (serviceName worker : Str) :
    Except Err Worker :=
  getWorker validate s worker serviceName

end Amp.Registry
