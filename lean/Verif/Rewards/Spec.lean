import Verif.Rewards.Model

/-! # Specification vocabulary for the rewards contract -/

namespace Amp.Rewards

open Amp.Std

/-- state after a history that starts at instantiation with parameters `p` at height `h` -/
abbrev stateAfter (cfg : Config) (p : Params) (h : Nat) (cs : List Call) : State :=
  runCalls exec (init cfg p h) cs

/-- the successful calls of such a history, with the states before and after -/
abbrev trace (cfg : Config) (p : Params) (h : Nat) (cs : List Call) : List (Step State Call Resp) :=
  steps exec (init cfg p h) cs

/-! ### epochs -/

/-- the number of the epoch that block `h` belongs to -/
def epochNum (s : State) (h : Nat) : Option Nat :=
  match currentEpoch s h with
  | .ok e => some e.num
  | .error _ => none

/-- how many epochs of a pool were paid out: epochs `0 .. done - 1` -/
def done (s : State) (k : Addr) : Nat :=
  match s.watermarks k with
  | none => 0
  | some w => w + 1

/-- the epochs of pool `k` that a step pays out -/
def epochsPaid (k : Addr) (st : Step State Call Resp) : List Nat :=
  List.range' (done st.pre k) (done st.post k - done st.pre k)

/-! ### rewards of one epoch -/

/-- the worker took part in a fraction of the events that reaches the threshold (and is a fraction) -/
def eligible (t : Tally) (a : Addr) : Bool :=
  match t.participation.get? a with
  | none => false
  | some k => decide (0 < k ∧ k ≤ t.eventCount ∧
      t.params.threshold.num * t.eventCount ≤ k * t.params.threshold.den)

/-- number of eligible workers -/
def eligibleNum (t : Tally) : Nat := (t.participation.keys.filter (eligible t)).length

/-- the reward of a worker: an equal share, rounded down -/
def share (t : Tally) (a : Addr) : Nat :=
  if eligible t a then t.params.rewards / eligibleNum t else 0

/-- all rewards of an epoch -/
def epochTotal (t : Tally) : Nat := (t.participation.keys.map (share t)).sum

/-- what worker `a` is due from pool `k` for epoch `e` -/
def due (s : State) (k : Addr) (a : Addr) (e : Nat) : Nat :=
  match s.tallies (k, e) with
  | none => 0
  | some t => share t a

/-- what is due from pool `k` for epoch `e` in total -/
def dueTotal (s : State) (k : Addr) (e : Nat) : Nat :=
  match s.tallies (k, e) with
  | none => 0
  | some t => epochTotal t

/-! ### money -/

/-- transfers of a response to `a` -/
def paidTo (r : Resp) (a : Addr) : Nat :=
  (r.sends.map (fun p => if p.1 = a then p.2.2 else 0)).sum

/-- all transfers of a response -/
def paidOut (r : Resp) : Nat := (r.sends.map (fun p => p.2.2)).sum

/-- coins of denomination `d` in a list -/
def amountOf (d : Str) (l : List Coin) : Nat := (l.map (fun c => if c.1 = d then c.2 else 0)).sum

/-- deposits into pool `k` by a step -/
def depositOf (d : Str) (k : Addr) (st : Step State Call Resp) : Nat :=
  if st.call.msg = .addRewards k then amountOf d st.call.funds else 0

/-- payouts from pool `k` by a step -/
def payoutOf (k : Addr) (st : Step State Call Resp) : Nat :=
  match st.call.msg with
  | .distributeRewards k' _ => if k' = k then paidOut st.resp else 0
  | _ => 0

/-- total deposits into and payouts from a pool -/
def deposits (d : Str) (k : Addr) (log : List (Step State Call Resp)) : Nat :=
  (log.map (depositOf d k)).sum
def payouts (k : Addr) (log : List (Step State Call Resp)) : Nat := (log.map (payoutOf k)).sum

/-- coins of denomination `d` received and sent by the contract -/
def received (d : Str) (log : List (Step State Call Resp)) : Nat :=
  (log.map (fun st => amountOf d st.call.funds)).sum
def sent (d : Str) (log : List (Step State Call Resp)) : Nat :=
  (log.map (fun st => amountOf d (st.resp.sends.map Prod.snd))).sum

/-- all pool balances together -/
def totalPools (s : State) : Nat := s.pools.sumBy (fun _ v => v)

/-! ### participation -/

/-- the record made by a step for contract `k`: event, worker, and the epoch it happened in -/
def recordOf (k : Addr) (st : Step State Call Resp) : Option (Str × Addr × Nat) :=
  match st.call.msg with
  | .recordParticipation ev w =>
    if st.call.sender = k then
      match epochNum st.pre st.call.height with
      | some e => some (ev, w, e)
      | none => none
    else none
  | _ => none

/-- all records for a contract, in order -/
def records (k : Addr) (log : List (Step State Call Resp)) : List (Str × Addr × Nat) :=
  log.filterMap (recordOf k)

/-- the epoch of the first record of an event -/
def homeEpoch (rs : List (Str × Addr × Nat)) (ev : Str) : Option Nat :=
  (rs.find? (fun r => r.1 = ev)).map (fun r => r.2.2)

/-- the elements of a list without repetitions -/
def distinct (l : List Str) : List Str :=
  l.foldl (fun acc x => if x ∈ acc then acc else acc ++ [x]) []

/-- the events of an epoch: those recorded in it first -/
def eventsIn (rs : List (Str × Addr × Nat)) (e : Nat) : List Str :=
  (distinct (rs.map (·.1))).filter (fun ev => homeEpoch rs ev = some e)

/-- how many records a worker has for the events of an epoch -/
def recordsIn (rs : List (Str × Addr × Nat)) (e : Nat) (a : Addr) : Nat :=
  (rs.filter (fun r => r.2.1 = a ∧ homeEpoch rs r.1 = some e)).length

end Amp.Rewards
