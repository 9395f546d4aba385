import Verif.Wire.Msgs
import Verif.Wire.FitLemmas

/-!
# Specification for C95: which messages there are, and for whom
-/

namespace Amp.Wire

open Amp.Router (ChainName Lowering CCId Message)
open Amp.Chain (Msg)

/-! ### What the types of the messages guarantee -/

/-- `CrossChainId` -/
def CCIdTyped (L : Lowering) (i : CCId) : Prop := i.chain.Valid L ∧ i.id ≠ []

/-- `Message`: chain names are valid, texts are not empty, the hash has 32 bytes -/
structure MessageTyped (L : Lowering) (m : Message) : Prop where
  ccId : CCIdTyped L m.ccId
  sourceAddress : m.sourceAddress ≠ []
  destinationChain : m.destinationChain.Valid L
  destinationAddress : m.destinationAddress ≠ []
  payloadHash : IsBytes m.payloadHash ∧ m.payloadHash.length = 32

/-- the message of the nexus module -/
structure NexusTyped (L : Lowering) (n : Nexus.NexusMsg) : Prop where
  sourceChain : n.sourceChain.Valid L
  sourceAddress : n.sourceAddress ≠ []
  destinationChain : n.destinationChain.Valid L
  destinationAddress : n.destinationAddress ≠ []
  payloadHash : IsBytes n.payloadHash ∧ n.payloadHash.length = 32
  tx : n.WellTyped

/-- a worker set in a message: numbers in range, keys are bytes -/
structure SetTyped (ws : Multisig.RawWorkerSet) : Prop where
  signers : ∀ e ∈ ws.signers, e.2.weight ≤ u256Max ∧ IsBytes e.2.key
  threshold : ws.threshold ≤ u256Max
  createdAt : ws.createdAt ≤ u64Max

/-- A message of its type: numbers are in the range of their types, binary data are bytes, chain names are valid and
texts that must not be empty are not. -/
def Typed (L : Lowering) : Msg → Prop
  | .verifier (.verifyMessages ms) => ∀ m ∈ ms, MessageTyped L m
  | .verifier (.vote id _) => id ≤ u64Max
  | .verifier (.endPoll id) => id ≤ u64Max
  | .verifier (.verifyWorkerSet id o) => id ≠ [] ∧ OperatorsFit o
  | .gateway (.verifyMessages ms) => ∀ m ∈ ms, MessageTyped L m
  | .gateway (.routeMessages ms) => ∀ m ∈ ms, MessageTyped L m
  | .router (.registerChain c _) => c.Valid L
  | .router (.upgradeGateway c _) => c.Valid L
  | .router (.freezeChain c _) => c.Valid L
  | .router (.unfreezeChain c _) => c.Valid L
  | .router (.routeMessages ms) => ∀ m ∈ ms, MessageTyped L m
  | .nexus (.routeMessages ms) => ∀ m ∈ ms, MessageTyped L m
  | .nexus (.routeMessagesFromNexus ns) => ∀ n ∈ ns, NexusTyped L n
  | .registry (.registerService _ sv) => sv.minBond ≤ u128Max ∧ sv.unbondingDays ≤ u16Max
  | .registry (.declareChainSupport _ cs) => ∀ c ∈ cs, ChainName.Valid L c
  | .registry _ => True
  | .rewards (.recordParticipation e _) => e ≠ []
  | .rewards (.distributeRewards _ n) => ∀ k, n = some k → k ≤ u64Max
  | .rewards (.addRewards _) => True
  | .rewards (.updateParams p) => (0 < p.duration ∧ p.duration ≤ u64Max) ∧ p.rewards ≤ u128Max ∧ 0 < p.threshold.num ∧
      p.threshold.num ≤ p.threshold.den ∧ p.threshold.den ≤ u64Max
  | .multisig (.startSigningSession _ msg chain _) => IsBytes msg ∧ ChainName.Valid L chain
  | .multisig (.submitSignature id sig) => id ≤ u64Max ∧ IsBytes sig
  | .multisig (.registerWorkerSet ws) => SetTyped ws
  | .multisig (.registerPublicKey _ key) => IsBytes key
  | .multisig _ => True
  | .prover (.constructProof ids) => ∀ i ∈ ids, CCIdTyped L i
  | .prover _ => True
  | .route ms => ∀ m ∈ ms, MessageTyped L m

/-- the left-out fields of a service, of their types -/
def UnreadTyped (u : Unread) : Prop := u.minWorkers ≤ u16Max ∧ ∀ k, u.maxWorkers = some k → k ≤ u16Max

/-! ### For whom a message is -/

/-- the messages routed by a `RouteMessages`, whichever contract it is for -/
def routed : Msg → Option (List Message)
  | .route ms => some ms
  | .gateway (.routeMessages ms) => some ms
  | .router (.routeMessages ms) => some ms
  | .nexus (.routeMessages ms) => some ms
  | _ => none

/-- What a contract of some kind should understand: its own messages, and `RouteMessages` if it is a gateway, the router or
the nexus gateway.  Nothing else. -/
def understood : Party → Msg → Option Msg
  | .verifier, .verifier m => some (.verifier m)
  | .gateway, m =>
    match routed m, m with
    | some ms, _ => some (.route ms)
    | none, .gateway x => some (.gateway x)
    | none, _ => none
  | .router, m =>
    match routed m, m with
    | some ms, _ => some (.route ms)
    | none, .router x => some (.router x)
    | none, _ => none
  | .nexus, m =>
    match routed m, m with
    | some ms, _ => some (.route ms)
    | none, .nexus x => some (.nexus x)
    | none, _ => none
  | .registry, .registry m => some (.registry m)
  | .rewards, .rewards m => some (.rewards m)
  | .multisig, .multisig m => some (.multisig m)
  | .prover, .prover m => some (.prover m)
  | _, _ => none

end Amp.Wire
