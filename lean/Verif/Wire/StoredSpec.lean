import Verif.Wire.Stored
import Verif.Wire.HashSpec

/-!
# Specification for C98: what may be stored
-/

namespace Amp.Wire

open Amp.Router (ChainName Lowering CCId Message)
open Amp.Chain (Setup)

/-- `WeightedPoll`: numbers in range, no participant twice -/
structure PollInRange (p : Std.Poll) : Prop where
  pollId : p.pollId ≤ u64Max
  quorum : p.quorum ≤ u256Max
  expiresAt : p.expiresAt ≤ u64Max
  pollSize : p.pollSize ≤ u64Max
  tallies : ∀ t ∈ p.tallies, ∀ v, t.get v ≤ u256Max
  weights : ∀ e ∈ p.participation, e.2.weight ≤ u256Max
  sorted : OMap.Sorted p.participation

/-- `rewards/src/msg.rs:11-25` -/
def ParamsInRange (p : Rewards.Params) : Prop :=
  (0 < p.duration ∧ p.duration ≤ u64Max) ∧ p.rewards ≤ u128Max ∧ 0 < p.threshold.num ∧
    p.threshold.num ≤ p.threshold.den ∧ p.threshold.den ≤ u64Max

/-- `Epoch` -/
def EpochInRange (e : Rewards.Epoch) : Prop := e.num ≤ u64Max ∧ e.start ≤ u64Max

/-- `EpochTally` -/
structure TallyInRange (t : Rewards.Tally) : Prop where
  eventCount : t.eventCount ≤ u64Max
  counts : ∀ e ∈ t.participation, e.2 ≤ u64Max
  sorted : OMap.Sorted t.participation
  epoch : EpochInRange t.epoch
  params : ParamsInRange t.params

/-- `CommandBatch` -/
structure BatchInRange (L : Lowering) (b : Prover.Batch) : Prop where
  id : IsBytes b.id
  messageIds : ∀ i ∈ b.messageIds, CCIdTyped L i
  chainId : b.data.destinationChainId ≤ u256Max
  commands : ∀ c ∈ b.data.commands, IsBytes c.id ∧ IsBytes c.params

/-- The values of the Rust types: numbers in the range of their types, chain names valid, binary data bytes, texts of types
that are not empty not empty. -/
def Value.InRange (L : Lowering) : Value → Prop
  | .counter n => n ≤ u64Max
  | .poll p => PollInRange p.poll
  | .polledMessage c => MessageTyped L c.content ∧ c.pollId ≤ u64Max ∧ c.index ≤ maxU32
  | .polledSet c => OperatorsFit c.content ∧ c.pollId ≤ u64Max ∧ c.index ≤ maxU32
  | .message m => MessageTyped L m
  | .endpoint e => e.name.Valid L ∧ e.frozen.toNat ≤ 3
  | .unit => True
  | .service _ sv => sv.minBond ≤ u128Max ∧ sv.unbondingDays ≤ u16Max
  | .worker w => BondingTyped w.bonding
  | .params p e => ParamsInRange p ∧ EpochInRange e
  | .tally _ t => TallyInRange t
  | .event id _ n => id ≠ [] ∧ n ≤ u64Max
  | .pool _ n => n ≤ u128Max
  | .epoch n => n ≤ u64Max
  | .session s => s.id ≤ u64Max ∧ IsBytes s.msg ∧ ∀ h, s.state = .completed h → h ≤ u64Max
  | .signature s => IsBytes s.bytes
  | .workerSet ws => FullSetTyped ws ∧ OMap.Sorted ws.signers
  | .bytes b => IsBytes b
  | .batch b => BatchInRange L b

/-- Parameters of the rewards contracts, the heights at which they are instantiated and the chain ids of provers are in range
(`rewards/src/contract.rs:17-46`, `multisig-prover/src/msg.rs:10-58`). -/
def SetupInRange (setup : Setup) : Prop :=
  (∀ a cfg p h, setup a = some (.rewards cfg p h) → ParamsInRange p ∧ h ≤ u64Max) ∧
    ∀ a cfg sv kt, setup a = some (.prover cfg sv kt) → cfg.destinationChainId ≤ u256Max

/-- Keccak-256 and `ethereum_types::Address::from_str` give bytes. -/
structure Octets (X : Encoding.Ext) : Prop where
  keccak : ∀ b, IsBytes (X.keccak b)
  parseH160 : ∀ s b, X.parseH160 s = some b → IsBytes b

end Amp.Wire
