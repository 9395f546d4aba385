import Verif.Registry.Model

/-! # Specification vocabulary for the service registry: everything is read off the log of successful
calls. -/

namespace Amp.Registry

open Amp.Router

/-- state after a history -/
abbrev stateAfter (gov : Addr) (cs : List Call) : State := runCalls exec (init gov) cs

/-- log of successful calls -/
abbrev history (gov : Addr) (cs : List Call) : List (Call × Resp) := outs exec (init gov) cs

/-- the amount at stake in a bonding state -/
def BondingState.amount : BondingState → Nat
  | .bonded n => n
  | .requestedUnbonding n => n
  | .unbonding n _ => n
  | .unbonded => 0

/-- the stake recorded for a worker in a service -/
def stakeOf (s : State) (name : Str) (a : Addr) : Nat :=
  match findWorker s name a with
  | none => 0
  | some w => w.bonding.amount

/-- the bonding state of a worker in a service; a worker never seen is unbonded -/
def bondingOf (s : State) (name : Str) (a : Addr) : BondingState :=
  match findWorker s name a with
  | none => .unbonded
  | some w => w.bonding

/-- total stake recorded in a service -/
def totalStake (s : State) (name : Str) : Nat :=
  (workersOf s name).sumBy (fun _ w => w.bonding.amount)

/-- amount of the first coin of denomination `d` in a list of coins -/
def firstOf (d : Str) : List Coin → Nat
  | [] => 0
  | (d', n) :: t => if d' = d then n else firstOf d t

/-- amount of all coins of denomination `d` in a list of coins -/
def allOf (d : Str) (l : List Coin) : Nat :=
  (l.map (fun c => if c.1 = d then c.2 else 0)).sum

/-- the registration of a service in a log: the first one -/
def registered : List (Call × Resp) → Str → Option Service
  | [], _ => none
  | e :: t, name =>
    match e.1.msg with
    | .registerService n sv => if n = name then some sv else registered t name
    | _ => registered t name

/-- what one call of the log deposits as bond of worker `a` in service `name` with denomination `d` -/
def depositBy (name : Str) (d : Str) (a : Addr) (e : Call × Resp) : Nat :=
  if e.1.msg = .bondWorker name ∧ e.1.sender = a then firstOf d e.1.funds else 0

/-- what one call of the log pays out to `a` claiming stake in service `name` -/
def payoutTo (name : Str) (a : Addr) (e : Call × Resp) : Nat :=
  if e.1.msg = .claimStake name then
    (e.2.sends.map (fun p => if p.1 = a then p.2.2 else 0)).sum
  else 0

/-- bonds deposited so far by a worker in a service -/
def deposits (log : List (Call × Resp)) (name d : Str) (a : Addr) : Nat :=
  (log.map (depositBy name d a)).sum

/-- stake paid out so far to a worker from a service -/
def payouts (log : List (Call × Resp)) (name : Str) (a : Addr) : Nat :=
  (log.map (payoutTo name a)).sum

/-- all bonds deposited so far in a service -/
def totalDeposits (log : List (Call × Resp)) (name d : Str) : Nat :=
  (log.map (fun e => if e.1.msg = .bondWorker name then firstOf d e.1.funds else 0)).sum

/-- all stake paid out so far from a service -/
def totalPayouts (log : List (Call × Resp)) (name : Str) : Nat :=
  (log.map (fun e =>
    if e.1.msg = .claimStake name then (e.2.sends.map (fun p => p.2.2)).sum else 0)).sum

/-- coins of denomination `d` that the contract received with the calls of a log -/
def received (log : List (Call × Resp)) (d : Str) : Nat := (log.map (fun e => allOf d e.1.funds)).sum

/-- coins of denomination `d` that the contract sent in the calls of a log -/
def sent (log : List (Call × Resp)) (d : Str) : Nat :=
  (log.map (fun e => allOf d (e.2.sends.map (fun p => p.2)))).sum

/-- everything recorded as stake in coins of denomination `d`, over all services -/
def owed (s : State) (d : Str) : Nat :=
  (s.services.map (fun e => if e.2.denom = d then totalStake s e.1 else 0)).sum

/-- the calls by which a worker manages its own stake in a service -/
def ownCall (name : Str) (a : Addr) (e : Call × Resp) : Bool :=
  e.1.sender = a &&
    (e.1.msg = .bondWorker name || e.1.msg = .unbondWorker name || e.1.msg = .claimStake name)

/-- the last call by which a worker managed its stake -/
def lastOwn (log : List (Call × Resp)) (name : Str) (a : Addr) : Option Call :=
  ((log.filter (ownCall name a)).getLast?).map Prod.fst

/-- the bonding state that follows from the last call by which a worker managed its stake, and the
amount at stake -/
def phase (last : Option Call) (amount : Nat) : BondingState :=
  match last with
  | none => .unbonded
  | some c =>
    match c.msg with
    | .bondWorker _ => .bonded amount
    | .unbondWorker _ => .unbonding amount c.time
    | _ => .unbonded

/-- does a governance call of the log set the authorisation of `a` in `name`, and to what? -/
def authBy (name : Str) (a : Addr) (e : Call × Resp) : Option AuthState :=
  match e.1.msg with
  | .authorizeWorkers ws n => if n = name ∧ a ∈ ws then some .authorized else none
  | .unauthorizeWorkers ws n => if n = name ∧ a ∈ ws then some .notAuthorized else none
  | _ => none

/-- the authorisation of `a` in `name` according to the log: what the last call about it said, and
unauthorised if there was none -/
def authAfter : List (Call × Resp) → Str → Addr → AuthState → AuthState
  | [], _, _, cur => cur
  | e :: t, name, a, cur =>
    match authBy name a e with
    | none => authAfter t name a cur
    | some x => authAfter t name a x

/-- Has `a` declared support for a chain in the log? -/
def declaredIn (log : List (Call × Resp)) (name : Str) (chain : ChainName) (a : Addr) : Prop :=
  ∃ e ∈ log, e.1.sender = a ∧ ∃ chains, e.1.msg = .declareChainSupport name chains ∧ chain ∈ chains

/-- The legal transitions of a worker's bonding state, by the worker's own calls: bonding makes it
bonded with the sum, unbonding starts the clock and keeps the amount, claiming needs the period to be
over and ends it. -/
inductive Transition (time : Nat) (days : Nat) : BondingState → BondingState → Prop
  | bond (b : BondingState) (extra : Nat) (h : b.amount + extra ≠ 0) :
      Transition time days b (.bonded (b.amount + extra))
  | unbond (n : Nat) : Transition time days (.bonded n) (.unbonding n time)
  | claim (n t : Nat) (h : t + days * dayNanos ≤ time) :
      Transition time days (.unbonding n t) .unbonded

end Amp.Registry
