import Verif.VV.Model

/-!
# Specification vocabulary for the voting verifier

Everything is phrased over the log of successful calls and responses, i.e. what an observer of the
chain sees.
-/

namespace Amp.VV

open Amp.Std Amp.Router Amp.Registry

/-- a configuration that can be deserialised: its threshold passed validation -/
def Config.Valid (cfg : Config) : Prop :=
  MajorityThreshold.ofPair cfg.threshold.num cfg.threshold.den = .ok cfg.threshold

/-- the metadata of the poll started by a response, if it started one -/
def startedMeta (r : Resp) : Option PollMeta :=
  match r.event with
  | some (.messagesPollStarted _ pm) => some pm
  | some (.workerSetPollStarted _ _ _ pm) => some pm
  | _ => none

/-- log of successful calls of a history of the contract -/
abbrev history (H : Hashes) (cfg : Config) (cs : List Call) : List (Call × Resp) :=
  outs (exec H) (init cfg) cs

/-- state after a history -/
abbrev stateAfter (H : Hashes) (cfg : Config) (cs : List Call) : State :=
  runCalls (exec H) (init cfg) cs

/-- the ids of the polls started in a log, in order -/
def startedIds (log : List (Call × Resp)) : List Nat :=
  log.filterMap (fun e => (startedMeta e.2).map (·.pollId))

/-- participation records emitted in a log -/
def rewardMsgs (log : List (Call × Resp)) : List RewardMsg := log.flatMap (fun e => e.2.msgs)

/-- In the log, `a` successfully voted `v` for item `i` of poll `id` before block `limit`. -/
def VotedFor (log : List (Call × Resp)) (a : Addr) (id i : Nat) (v : Vote) (limit : Nat) : Prop :=
  ∃ c r vs, (c, r) ∈ log ∧ c.sender = a ∧ c.msg = .vote id vs ∧ vs[i]? = some v ∧ c.height < limit

/-- A quorum of `ws` voted `SucceededOnChain` for item `i` of poll `id`: there are distinct voters
among the workers `ws`, as many as the threshold fraction of all of `ws`, each of whom cast that vote
before block `limit`. -/
def QuorumOf (th : MajorityThreshold) (log : List (Call × Resp)) (ws : List Worker)
    (id i : Nat) (limit : Nat) : Prop :=
  ∃ voters : List Addr, voters.Nodup ∧
    (∀ a ∈ voters, (∃ w ∈ ws, w.address = a) ∧ VotedFor log a id i .succeededOnChain limit) ∧
    ws.length * th.num ≤ voters.length * th.den

end Amp.VV
