import Verif.Base.Steps
import Verif.Std.Model
import Mathlib.Order.Nat

/-!
# The rewards contract (`contracts/rewards/src`)

Addresses are natural numbers, their order stands for the byte order of the address strings.  Hash maps
that are iterated over are represented in key order (every use either sorts or is insensitive to order).
An arithmetic overflow, which aborts the transaction, is the error `panic`.
-/

namespace Amp.Rewards

open Amp.Std

/-- a coin (denomination, amount) -/
abbrev Coin := Str × Nat

/-- `state.rs:13-17` (`Config`) -/
structure Config where
  governance : Addr
  denom : Str
  deriving DecidableEq, Repr

/-- `msg.rs:11-25` (`Params`).  `rewards` is a `nonempty::Uint128`, whose deserialisation does not
reject zero. -/
structure Params where
  duration : Nat
  rewards : Nat
  threshold : Threshold
  deriving DecidableEq, Repr

/-- `state.rs:106-110` (`Epoch`) -/
structure Epoch where
  num : Nat
  start : Nat
  deriving DecidableEq, Repr

/-- `state.rs:26-33` (`EpochTally`); the contract address is part of the key -/
structure Tally where
  eventCount : Nat
  participation : OMap Addr Nat
  epoch : Epoch
  params : Params
  deriving DecidableEq, Repr

/-- Storage (`state.rs:168-184`): `PARAMS` (split into `params` and `lastUpdated`), `TALLIES`, `EVENTS`
(of which only the epoch number is read), `POOLS`, `WATERMARKS`, `CONFIG`. -/
structure State where
  config : Config
  params : Params
  lastUpdated : Epoch
  tallies : KV (Addr × Nat) Tally
  events : KV (Str × Addr) Nat
  pools : OMap Addr Nat
  watermarks : KV Addr Nat

/-- `contract.rs:17-46` (`instantiate`) -/
def init (cfg : Config) (p : Params) (height : Nat) : State :=
  ⟨cfg, p, ⟨0, height⟩, KV.empty, KV.empty, [], KV.empty⟩

/-- `error.rs` -/
inductive Err
  | unauthorized
  | blockHeightInPast
  | noRewardsToDistribute
  | poolBalanceInsufficient
  | wrongDenom
  | zeroRewards
  | panic
  deriving DecidableEq, Repr

/-- `msg.rs:27-59` (`ExecuteMsg`); addresses are taken to be valid -/
inductive Msg
  | recordParticipation (eventId : Str) (worker : Addr)
  | distributeRewards (contract : Addr) (epochCount : Option Nat)
  | addRewards (contract : Addr)
  | updateParams (params : Params)
  deriving DecidableEq, Repr

/-- a call: sender, coins sent along, block height -/
structure Call where
  sender : Addr
  funds : List Coin
  height : Nat
  msg : Msg
  deriving DecidableEq, Repr

/-- the response: bank transfers (recipient, coin) -/
structure Resp where
  sends : List (Addr × Coin) := []
  deriving DecidableEq, Repr

/-- `execute.rs:45-61` (`current_epoch`) -/
def currentEpoch (s : State) (height : Nat) : Except Err Epoch :=
  if height < s.lastUpdated.start then .error .blockHeightInPast
  else if s.params.duration = 0 then .error .panic
  else
    let elapsed := (height - s.lastUpdated.start) / s.params.duration
    if s.lastUpdated.num + elapsed > u64Max then .error .panic
    else .ok ⟨s.lastUpdated.num + elapsed, s.lastUpdated.start + elapsed * s.params.duration⟩

/-- `state.rs:48-54` (`EpochTally::record_participation`): add one to the count of the worker -/
def Tally.record (t : Tally) (worker : Addr) : Except Err Tally :=
  match t.participation.get? worker with
  | none => .ok { t with participation := t.participation.set worker 1 }
  | some k =>
    if k + 1 > u64Max then .error .panic
    else .ok { t with participation := t.participation.set worker (k + 1) }

/-- `execute.rs:98-116` (`load_or_store_event`): the epoch the event belongs to, whether it is new, and
the events afterwards -/
def loadOrStoreEvent (s : State) (eventId : Str) (contract : Addr) (curEpoch : Nat) :
    Nat × Bool × KV (Str × Addr) Nat :=
  match s.events (eventId, contract) with
  | none => (curEpoch, true, s.events.set (eventId, contract) curEpoch)
  | some e => (e, false, s.events)

/-- `execute.rs:91-93`: a new event is counted -/
def bumpEvents (isNew : Bool) (t : Tally) : Except Err Tally :=
  if isNew then
    if t.eventCount + 1 > u64Max then .error .panic
    else .ok { t with eventCount := t.eventCount + 1 }
  else .ok t

/-- `execute.rs:70-96` (`record_participation`) -/
def recordParticipation (s : State) (eventId : Str) (worker contract : Addr) (height : Nat) :
    Except Err (State × Resp) :=
  match currentEpoch s height with
  | .error e => .error e
  | .ok cur =>
    match loadOrStoreEvent s eventId contract cur.num with
    | (epochNum, isNew, events) =>
      let tally := match s.tallies (contract, epochNum) with
        | some t => t
        | none => ⟨0, [], cur, s.params⟩
      match tally.record worker with
      | .error e => .error e
      | .ok t1 =>
        match bumpEvents isNew t1 with
        | .error e => .error e
        | .ok t2 =>
          .ok ({ s with events := events, tallies := s.tallies.set (contract, t2.epoch.num) t2 }, {})

/-- the test of `state.rs:80-82`: the participation is a valid fraction and reaches the threshold -/
def eligibleCount (t : Tally) (participated : Nat) : Bool :=
  match Threshold.tryFrom participated t.eventCount with
  | .error _ => false
  | .ok f => f.ge t.params.threshold

/-- `state.rs:76-86` (`workers_to_reward`) -/
def workersToReward (t : Tally) : List Addr :=
  (t.participation.filter (fun e => eligibleCount t e.2)).map Prod.fst

/-- `state.rs:56-74` (`rewards_by_worker`) -/
def rewardsByWorker (t : Tally) : List (Addr × Nat) :=
  let workers := workersToReward t
  let perWorker := if workers.length = 0 then 0 else t.params.rewards / workers.length
  if perWorker = 0 then [] else workers.map (fun w => (w, perWorker))

/-- `execute.rs:235-245` (`merge_rewards`) -/
def mergeRewards (acc : OMap Addr Nat) : List (Addr × Nat) → Except Err (OMap Addr Nat)
  | [] => .ok acc
  | (a, amt) :: t =>
    match acc.get? a with
    | none => mergeRewards (acc.set a amt) t
    | some k => if k + amt > u128Max then .error .panic else mergeRewards (acc.set a (k + amt)) t

/-- `execute.rs:161-183` (`cumulate_rewards`, `iterate_epoch_tallies`): the tallies of the `n` epochs
from `from` on -/
def cumulate (s : State) (contract : Addr) (acc : OMap Addr Nat) (fr : Nat) :
    Nat → Except Err (OMap Addr Nat)
  | 0 => .ok acc
  | n + 1 =>
    match s.tallies (contract, fr) with
    | none => cumulate s contract acc (fr + 1) n
    | some t =>
      match mergeRewards acc (rewardsByWorker t) with
      | .error e => .error e
      | .ok acc' => cumulate s contract acc' (fr + 1) n

/-- `POOLS.may_load` with default (`state.rs:217-227`) -/
def poolOf (s : State) (contract : Addr) : Nat :=
  match s.pools.get? contract with
  | none => 0
  | some b => b

/-- `rewards.values().sum()` -/
def sumRewards (m : OMap Addr Nat) : Nat := m.sumBy (fun _ v => v)

/-- `execute.rs:146-159` (`process_rewards_for_epochs`), `state.rs:127-134` (`sub_reward`); `n` is the
number of epochs -/
def processRewards (s : State) (contract : Addr) (fr n : Nat) : Except Err (State × OMap Addr Nat) :=
  match cumulate s contract [] fr n with
  | .error e => .error e
  | .ok rewards =>
    if sumRewards rewards > u128Max then .error .panic
    else if poolOf s contract < sumRewards rewards then .error .poolBalanceInsufficient
    else
      .ok ({ s with pools := s.pools.set contract (poolOf s contract - sumRewards rewards) }, rewards)

/-- `execute.rs:127-130` -/
def fromEpoch (s : State) (contract : Addr) : Nat :=
  match s.watermarks contract with
  | none => 0
  | some w => w + 1

/-- `execute.rs:132-135`; `saturating_sub` is subtraction of naturals -/
def toEpoch (fr limit cur : Nat) : Nat := min (fr + limit - 1) (cur - 2)

/-- `execute.rs:14, 124` -/
def limitOf (epochCount : Option Nat) : Nat :=
  match epochCount with
  | none => 10
  | some n => n

/-- `execute.rs:118-144` (`distribute_rewards`), `contract.rs:85-107` -/
def distribute (s : State) (contract : Addr) (height : Nat) (epochCount : Option Nat) :
    Except Err (State × Resp) :=
  let limit := limitOf epochCount
  match currentEpoch s height with
  | .error e => .error e
  | .ok cur =>
    let fr := fromEpoch s contract
    if fr > u64Max then .error .panic
    else if fr + limit > u64Max then .error .panic
    else
      let upto := toEpoch fr limit cur.num
      if upto < fr ∨ cur.num < 2 then .error .noRewardsToDistribute
      else
        match processRewards s contract fr (upto + 1 - fr) with
        | .error e => .error e
        | .ok (s', rewards) =>
          .ok ({ s' with watermarks := s'.watermarks.set contract upto },
            { sends := rewards.map (fun e => (e.1, (s.config.denom, e.2))) })

/-- `execute.rs:185-214` (`update_params`) -/
def updateParams (s : State) (p : Params) (height : Nat) (sender : Addr) :
    Except Err (State × Resp) :=
  if s.config.governance ≠ sender then .error .unauthorized
  else
    match currentEpoch s height with
    | .error e => .error e
    | .ok cur =>
      if cur.start + p.duration > u64Max then .error .panic
      else if cur.start + p.duration < height then
        if cur.num + 1 > u64Max then .error .panic
        else .ok ({ s with params := p, lastUpdated := ⟨cur.num + 1, height⟩ }, {})
      else .ok ({ s with params := p, lastUpdated := cur }, {})

/-- `contract.rs:67-84`, `execute.rs:216-227` (`add_rewards`) -/
def addRewards (s : State) (contract : Addr) (funds : List Coin) : Except Err (State × Resp) :=
  match funds.find? (fun c => c.1 = s.config.denom) with
  | none => .error .wrongDenom
  | some c =>
    if funds.length ≠ 1 then .error .wrongDenom
    else if c.2 = 0 then .error .zeroRewards
    else if poolOf s contract + c.2 > u128Max then .error .panic
    else .ok ({ s with pools := s.pools.set contract (poolOf s contract + c.2) }, {})

/-- `contract.rs:48-114` (`execute`) -/
def exec (s : State) (c : Call) : Except Err (State × Resp) :=
  match c.msg with
  | .recordParticipation ev w => recordParticipation s ev w c.sender c.height
  | .addRewards k => addRewards s k c.funds
  | .distributeRewards k n => distribute s k c.height n
  | .updateParams p => updateParams s p c.height c.sender

end Amp.Rewards
