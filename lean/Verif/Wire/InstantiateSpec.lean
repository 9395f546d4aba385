import Verif.Wire.Instantiate
import Verif.Wire.StoredSpec

/-!
# Specification for C104: what contracts can be instantiated with
-/

namespace Amp.Wire

open Amp.Router (ChainName Lowering)
open Amp.Chain (Setup Store)

/-- more than half, at most everything -/
structure IsMajority (t : Std.MajorityThreshold) : Prop where
  half : t.den < 2 * t.num
  whole : t.num ≤ t.den
  range : t.den ≤ u64Max

/-- a configuration in which thresholds are majorities, chain names valid, required texts not empty and numbers in the range of
their types -/
def Conf.Typed (L : Lowering) : Conf → Prop
  | .verifier c => c.serviceName ≠ [] ∧ c.sourceGateway ≠ [] ∧ IsMajority c.threshold ∧ c.blockExpiry ≤ u64Max ∧
      c.confirmationHeight ≤ u64Max ∧ c.sourceChain.Valid L
  | .multisig c => c.gracePeriod ≤ u64Max
  | .prover _ c _ _ => c.destinationChainId ≤ u256Max ∧ IsMajority c.signingThreshold ∧ c.chainName.Valid L ∧
      c.diffThreshold ≤ maxU32
  | _ => True

/-- and with parameters of rewards in range -/
def Order.Typed (L : Lowering) (o : Order) : Prop :=
  o.conf.Typed L ∧ ∀ c p, o = .rewards c p → ParamsInRange p

/-- every contract was instantiated with some text, at some height -/
def Founded (G : Texture) (setup : Setup) : Prop :=
  ∀ a k, setup a = some k → ∃ p text o h, readOrder G p text = some o ∧ h ≤ u64Max ∧ k = o.kind h

/-- the configuration in a storage; the administrator of a prover is not part of `Chain/Model.lean` -/
def confIn (admin : Addr) : Store → Conf
  | .verifier s => .verifier s.config
  | .gateway s => .gateway s.config
  | .router s => .router s.config
  | .nexus s => .nexus s.config
  | .registry s => .registry s.governance
  | .rewards s => .rewards s.config
  | .multisig s => .multisig s.config
  | .prover s sv kt => .prover admin s.config sv kt

/-- the administrator that a message names -/
def Order.admin : Order → Addr
  | .prover a _ _ _ => a
  | _ => 0

end Amp.Wire
