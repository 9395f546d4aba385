import Verif.Base.Prelude

/-!
# `packages/axelar-wasm-std`: thresholds, snapshots, counters and weighted polls
-/

namespace Amp.Std

/-! ## Thresholds -/

/-- `threshold.rs:7-15` -/
inductive ThresholdErr
  | outOfInterval
  | noMajority
  | invalidParameter
  deriving DecidableEq, Repr

/-- `threshold.rs:21-24` (`Threshold`).  `nonempty::Uint64` fields are naturals; that they are
non-zero is established by `Threshold.tryFrom`. -/
structure Threshold where
  num : Nat
  den : Nat
  deriving DecidableEq, Repr

/-- `threshold.rs:58-98`: `try_from::<(T,T)>` (both components converted to `nonempty::Uint64`, which
rejects zero) followed by the `numerator > denominator` check. -/
def Threshold.tryFrom (n d : Nat) : Except ThresholdErr Threshold :=
  if n = 0 then .error .invalidParameter
  else if d = 0 then .error .invalidParameter
  else if n > d then .error .outOfInterval
  else .ok ⟨n, d⟩

/-- `threshold.rs:43-50` (`PartialOrd for Threshold`): compare the cross products
(`full_mul` into `Uint128`, cannot overflow). -/
def Threshold.partialCmp (a b : Threshold) : Ordering :=
  compare (a.num * b.den) (b.num * a.den)

/-- `a >= b` as used by callers (`!= Less`). -/
def Threshold.ge (a b : Threshold) : Bool := a.partialCmp b != .lt

/-- `threshold.rs:104-107` (`MajorityThreshold`) -/
structure MajorityThreshold where
  num : Nat
  den : Nat
  deriving DecidableEq, Repr

/-- `threshold.rs:126-139`: `numerator <= denominator / 2` (integer division) is rejected. -/
def MajorityThreshold.tryFrom (t : Threshold) : Except ThresholdErr MajorityThreshold :=
  if t.num ≤ t.den / 2 then .error .noMajority else .ok ⟨t.num, t.den⟩

/-- The two conversions a deserialised `MajorityThreshold` goes through
(`threshold.rs:100-107`, `#[serde(try_from = "Threshold")]`). -/
def MajorityThreshold.ofPair (n d : Nat) : Except ThresholdErr MajorityThreshold :=
  match Threshold.tryFrom n d with
  | .error e => .error e
  | .ok t => MajorityThreshold.tryFrom t

/-! ## Snapshots -/

/-- Failures of `Snapshot::new`: the explicit `expect`, arithmetic overflow, and the empty
participant list excluded by `nonempty::Vec`. -/
inductive SnapshotErr
  | emptyParticipants
  | overflow
  | zeroQuorum
  deriving DecidableEq, Repr

/-- `Uint256::mul_ceil` (cosmwasm-std): floor of the exact product, plus one if there is a
remainder.  A result that does not fit 256 bits panics. -/
def mulCeil (x : Nat) (t : MajorityThreshold) : Except SnapshotErr Nat :=
  let fl := x * t.num / t.den
  let r := if x * t.num % t.den ≠ 0 then fl + 1 else fl
  if r ≤ u256Max then .ok r else .error .overflow

/-- `snapshot.rs:15-18` (`Snapshot`): the quorum and the weight of every participant.  The Rust
`HashMap<String, Participant>` is represented in key order; its values carry no information beyond
key and weight. -/
structure Snapshot where
  quorum : Nat
  participants : OMap Addr Nat
  deriving DecidableEq, Repr

/-- Total weight as accumulated in `snapshot.rs:25-33`: over *all* list entries. -/
def totalWeight (ps : List (Addr × Nat)) : Nat := (ps.map Prod.snd).sum

/-- `snapshot.rs:21-46` (`Snapshot::new`).  `ps` are the participants (address, weight) in order. -/
def Snapshot.new (th : MajorityThreshold) (ps : List (Addr × Nat)) : Except SnapshotErr Snapshot :=
  if ps = [] then .error .emptyParticipants
  else if totalWeight ps > u256Max then .error .overflow
  else
    match mulCeil (totalWeight ps) th with
    | .error e => .error e
    | .ok q =>
      if q = 0 then .error .zeroQuorum
      else .ok ⟨q, OMap.ofList ps⟩

/-! ## Counters -/

/-- `counter.rs:20-29` (`Counter::incr`): load or default 0, add one, save, return the new value.
`u64` overflow panics. -/
def counterIncr (c : Nat) : Option Nat := if c + 1 ≤ u64Max then some (c + 1) else none

/-! ## Weighted polls -/

/-- `voting.rs:37-58`, plus the panic of a `Uint256` overflow in `Tallies::tally`. -/
inductive VotingErr
  | notParticipant
  | invalidVoteSize
  | alreadyVoted
  | pollNotInProgress
  | pollNotEnded
  | pollExpired
  | messageIndexOutOfBounds
  | overflow
  deriving DecidableEq, Repr

/-- `voting.rs:140-144` -/
inductive Vote
  | succeededOnChain
  | failedOnChain
  | notFound
  deriving DecidableEq, Repr

/-- `voting.rs:158` (`Tallies`): a `BTreeMap<String, Uint256>` that always has exactly the three vote
names as keys (`Default`, `voting.rs:160-168`; `tally` only updates existing keys). -/
structure Tallies where
  failed : Nat := 0
  notFound : Nat := 0
  succeeded : Nat := 0
  deriving DecidableEq, Repr

/-- value stored under the name of a vote -/
def Tallies.get (t : Tallies) : Vote → Nat
  | .succeededOnChain => t.succeeded
  | .failedOnChain => t.failed
  | .notFound => t.notFound

/-- `voting.rs:181-186` (`Tallies::tally`) -/
def Tallies.tally (t : Tallies) (v : Vote) (w : Nat) : Tallies :=
  match v with
  | .succeededOnChain => { t with succeeded := t.succeeded + w }
  | .failedOnChain => { t with failed := t.failed + w }
  | .notFound => { t with notFound := t.notFound + w }

/-- iteration order of the `BTreeMap` keys: "FailedOnChain" < "NotFound" < "SucceededOnChain" -/
def voteOrder : List Vote := [.failedOnChain, .notFound, .succeededOnChain]

/-- `voting.rs:171-179` (`Tallies::consensus`): first key, in iteration order, whose tally reaches the
quorum. -/
def Tallies.consensus (t : Tallies) (quorum : Nat) : Option Vote :=
  voteOrder.find? (fun v => t.get v ≥ quorum)

/-- `voting.rs:198-201` -/
inductive PollStatus
  | inProgress
  | finished
  deriving DecidableEq, Repr

/-- `voting.rs:204-207` -/
structure Participation where
  weight : Nat
  vote : Option (List Vote)
  deriving DecidableEq, Repr

/-- `voting.rs:210-218` (`WeightedPoll`) -/
structure Poll where
  pollId : Nat
  quorum : Nat
  expiresAt : Nat
  pollSize : Nat
  tallies : List Tallies
  status : PollStatus
  participation : OMap Addr Participation
  deriving DecidableEq, Repr

/-- `voting.rs:221-247` (`WeightedPoll::new`) -/
def Poll.new (id : Nat) (snap : Snapshot) (expiry size : Nat) : Poll :=
  { pollId := id
    quorum := snap.quorum
    expiresAt := expiry
    pollSize := size
    tallies := List.replicate size {}
    status := .inProgress
    participation := snap.participants.map (fun e => (e.1, ⟨e.2, none⟩)) }

/-- `voting.rs:249-261` (`WeightedPoll::finish`) -/
def Poll.finish (p : Poll) (height : Nat) : Except VotingErr Poll :=
  if p.status = .finished then .error .pollNotInProgress
  else if height < p.expiresAt then .error .pollNotEnded
  else .ok { p with status := .finished }

/-- `voting.rs:190-195` (`PollState`) -/
structure PollState where
  pollId : Nat
  results : List (Option Vote)
  consensusParticipants : List Addr
  deriving DecidableEq, Repr

/-- `voting.rs:276-278`: a ballot agrees with all results where there is one (`zip`, `all`). -/
def votedConsensus (votes : List Vote) (results : List (Option Vote)) : Bool :=
  (votes.zip results).all (fun vr => vr.2.isNone || some vr.1 == vr.2)

/-- `voting.rs:263-294` (`WeightedPoll::state`) -/
def Poll.state (p : Poll) : PollState :=
  let results := p.tallies.map (fun t => t.consensus p.quorum)
  { pollId := p.pollId
    results := results
    consensusParticipants := p.participation.filterMap (fun e =>
      e.2.vote.bind (fun votes => if votedConsensus votes results then some e.1 else none)) }

/-- `voting.rs:296-302` (`WeightedPoll::consensus`) -/
def Poll.consensus (p : Poll) (idx : Nat) : Except VotingErr (Option Vote) :=
  match p.tallies[idx]? with
  | none => .error .messageIndexOutOfBounds
  | some t => .ok (t.consensus p.quorum)

/-- `voting.rs:327-332`: add the weight to one option of every item (`zip` stops at the shorter). -/
def tallyAll : List Tallies → List Vote → Nat → List Tallies
  | t :: ts, v :: vs, w => t.tally v w :: tallyAll ts vs w
  | ts, _, _ => ts

/-- some tally left the 256-bit range -/
def Tallies.exceeds (t : Tallies) : Bool :=
  t.failed > u256Max || t.notFound > u256Max || t.succeeded > u256Max

/-- `voting.rs:304-337` (`WeightedPoll::cast_vote`).  `Uint256 +=` panics on overflow: since a panic
reverts the transaction, checking the sums after all of them are formed is equivalent. -/
def Poll.castVote (p : Poll) (height : Nat) (sender : Addr) (votes : List Vote) :
    Except VotingErr Poll :=
  match p.participation.get? sender with
  | none => .error .notParticipant
  | some part =>
    if height ≥ p.expiresAt then .error .pollExpired
    else if votes.length ≠ p.pollSize then .error .invalidVoteSize
    else if part.vote.isSome then .error .alreadyVoted
    else
      let ts := tallyAll p.tallies votes part.weight
      if ts.any Tallies.exceeds then .error .overflow
      else .ok { p with
        tallies := ts
        participation := p.participation.set sender { part with vote := some votes } }

/-- The two operations a contract performs on a stored poll. -/
inductive PollOp
  | cast (height : Nat) (sender : Addr) (votes : List Vote)
  | finish (height : Nat)
  deriving DecidableEq, Repr

/-- height at which an operation happens -/
def PollOp.height : PollOp → Nat
  | .cast h _ _ => h
  | .finish h => h

/-- one operation -/
def Poll.exec (p : Poll) : PollOp → Except VotingErr (Poll × Unit)
  | .cast h a vs => (p.castVote h a vs).map (·, ())
  | .finish h => (p.finish h).map (·, ())

end Amp.Std
