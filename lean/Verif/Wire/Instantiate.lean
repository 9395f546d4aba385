import Verif.Wire.Stored

/-!
# Model: instantiation of contracts, and their stored configuration, as text

`contracts/*/src/msg.rs` (`InstantiateMsg`), `contracts/*/src/contract.rs` (`instantiate`), `contracts/*/src/state.rs`
(`Config`, `CONFIG`).  Every `instantiate` reads its message, checks the addresses in it (`addr_validate`), and saves a
configuration; `load` of that configuration is the first thing that every call does.

Simplified: addresses are checked when they are read (`Texts.parse`); the event `instantiated` of the voting verifier
(`voting-verifier/src/events.rs:19-47`) is left out; aggregate verifier and batching contract are not part of
`Chain/Model.lean`.
-/

namespace Amp.Wire

open Amp.Router (ChainName Lowering)
open Amp.Chain (Kind)

/-! ### Thresholds and names -/

/-- `MajorityThreshold` (`axelar-wasm-std/src/threshold.rs:100-107, 126-148`), written as a `Threshold`, which is written as
a pair (`threshold.rs:17-24`) -/
def jsonMajority (t : Std.MajorityThreshold) : Json := .arr [jsonUint t.num, jsonUint t.den]

/-- the same, read -/
def asMajority (j : Json) : Option Std.MajorityThreshold :=
  match asPair (asUint u64Max) (asUint u64Max) j with
  | some (n, d) =>
    match Std.MajorityThreshold.ofPair n d with
    | .ok t => some t
    | .error _ => none
  | none => none

/-- an address in a `nonempty::String` -/
def asTextAddr (T : Texts) (j : Json) : Option Addr := (asText j).bind T.parse

/-! ### Configurations -/

/-- what contracts keep under `CONFIG` -/
inductive Conf
  | verifier (cfg : VV.Config)
  | gateway (cfg : Gateway.Config)
  | router (cfg : Router.Config)
  | nexus (cfg : Nexus.Config)
  | registry (governance : Addr)
  | rewards (cfg : Rewards.Config)
  | multisig (cfg : Multisig.Config)
  | prover (admin : Addr) (cfg : Prover.Config) (service : Str) (keyType : Multisig.KeyType)
  deriving DecidableEq

/-- the kind of contract that keeps it -/
def Conf.party : Conf → Party
  | .verifier _ => .verifier
  | .gateway _ => .gateway
  | .router _ => .router
  | .nexus _ => .nexus
  | .registry _ => .registry
  | .rewards _ => .rewards
  | .multisig _ => .multisig
  | .prover _ _ _ _ => .prover

/-- `voting-verifier/src/state.rs:17-27`, `gateway/src/state.rs:19-23`, `connection-router/src/state.rs:86-91`,
`nexus-gateway/src/state.rs:60-64`, `service-registry/src/state.rs:9-12`, `rewards/src/state.rs:13-17`,
`multisig/src/state.rs:14-19`, `multisig-prover/src/state.rs:12-26` (`Config`) -/
def jsonConf (T : Texts) : Conf → Json
  | .verifier c => .obj [("service_registry_contract".toList, .str (T.text c.serviceRegistry)),
      ("service_name".toList, .str c.serviceName), ("source_gateway_address".toList, .str c.sourceGateway),
      ("voting_threshold".toList, jsonMajority c.threshold), ("block_expiry".toList, .nat c.blockExpiry),
      ("confirmation_height".toList, .nat c.confirmationHeight), ("source_chain".toList, .str c.sourceChain),
      ("rewards_contract".toList, .str (T.text c.rewards))]
  | .gateway c => .obj [("verifier".toList, .str (T.text c.verifier)), ("router".toList, .str (T.text c.router))]
  | .router c => .obj [("admin".toList, .str (T.text c.admin)), ("governance".toList, .str (T.text c.governance)),
      ("nexus_gateway".toList, .str (T.text c.nexusGateway))]
  | .nexus c => .obj [("nexus".toList, .str (T.text c.nexus)), ("router".toList, .str (T.text c.router))]
  | .registry g => .obj [("governance".toList, .str (T.text g))]
  | .rewards c => .obj [("governance".toList, .str (T.text c.governance)), ("rewards_denom".toList, .str c.denom)]
  | .multisig c => .obj [("governance".toList, .str (T.text c.governance)),
      ("rewards_contract".toList, .str (T.text c.rewards)), ("grace_period".toList, .nat c.gracePeriod)]
  | .prover admin c sv kt => .obj [("admin".toList, .str (T.text admin)), ("gateway".toList, .str (T.text c.gateway)),
      ("multisig".toList, .str (T.text c.multisig)), ("service_registry".toList, .str (T.text c.serviceRegistry)),
      ("voting_verifier".toList, .str (T.text c.votingVerifier)), ("destination_chain_id".toList, jsonUint c.destinationChainId),
      ("signing_threshold".toList, jsonMajority c.signingThreshold), ("service_name".toList, .str sv),
      ("chain_name".toList, .str c.chainName), ("worker_set_diff_threshold".toList, .nat c.diffThreshold),
      ("encoder".toList, .str (encoderName c.encoder)), ("key_type".toList, .str (keyTypeName kt))]

/-- the eight fields of a verifier, in the order of `InstantiateMsg` -/
def asVerifierFields (L : Lowering) (T : Texts) (registry : Json → Option Addr) : Option (List (Option Json)) → Option VV.Config
  | some [some a, some b, some c, some d, some e, some f, some g, some h] =>
    match registry a, asText b, asText c, asMajority d, asNat u64Max e, asNat u64Max f, asName L g, asAddr T h with
    | some a, some b, some c, some d, some e, some f, some g, some h => some ⟨a, b, c, d, e, f, g, h⟩
    | _, _, _, _, _, _, _, _ => none
  | _ => none

/-- the twelve fields of a prover -/
def asProverFields (L : Lowering) (T : Texts) :
    Option (List (Option Json)) → Option (Addr × Prover.Config × Str × Multisig.KeyType)
  | some [some a, some b, some c, some d, some e, some f, some g, some h, some i, some j, some k, some l] =>
    match asAddr T a, asAddr T b, asAddr T c, asAddr T d, asAddr T e, asUint u256Max f with
    | some a, some b, some c, some d, some e, some f =>
      match asMajority g, asStr h, asName L i, asNat maxU32 j, asEncoder k, asKeyType l with
      | some g, some h, some i, some j, some k, some l => some (a, ⟨b, c, d, e, f, g, i, j, k⟩, h, l)
      | _, _, _, _, _, _ => none
    | _, _, _, _, _, _ => none
  | _ => none

/-- three addresses -/
def asThree {α β γ : Type} (n m o : Str) (f : Json → Option α) (g : Json → Option β) (h : Json → Option γ) (j : Json) :
    Option (α × β × γ) :=
  match structOf [n, m, o] j with
  | some [some a, some b, some c] =>
    match f a, g b, h c with
    | some x, some y, some z => some (x, y, z)
    | _, _, _ => none
  | _ => none

/-- the same, read (`CONFIG.load`) -/
def asConf (L : Lowering) (T : Texts) : Party → Json → Option Conf
  | .verifier, j => (asVerifierFields L T (asAddr T) (structOf ["service_registry_contract".toList, "service_name".toList,
      "source_gateway_address".toList, "voting_threshold".toList, "block_expiry".toList, "confirmation_height".toList,
      "source_chain".toList, "rewards_contract".toList] j)).map .verifier
  | .gateway, j => (two "verifier".toList "router".toList (asAddr T) (asAddr T) j).map (fun p => .gateway ⟨p.1, p.2⟩)
  | .router, j => (asThree "admin".toList "governance".toList "nexus_gateway".toList (asAddr T) (asAddr T) (asAddr T) j).map
      (fun p => .router ⟨p.1, p.2.1, p.2.2⟩)
  | .nexus, j => (two "nexus".toList "router".toList (asAddr T) (asAddr T) j).map (fun p => .nexus ⟨p.1, p.2⟩)
  | .registry, j => (one "governance".toList (asAddr T) j).map .registry
  | .rewards, j => (two "governance".toList "rewards_denom".toList (asAddr T) asStr j).map (fun p => .rewards ⟨p.1, p.2⟩)
  | .multisig, j => (asThree "governance".toList "rewards_contract".toList "grace_period".toList (asAddr T) (asAddr T)
      (asNat u64Max) j).map (fun p => .multisig ⟨p.1, p.2.1, p.2.2⟩)
  | .prover, j => (asProverFields L T (structOf ["admin".toList, "gateway".toList, "multisig".toList, "service_registry".toList,
      "voting_verifier".toList, "destination_chain_id".toList, "signing_threshold".toList, "service_name".toList,
      "chain_name".toList, "worker_set_diff_threshold".toList, "encoder".toList, "key_type".toList] j)).map
      (fun p => .prover p.1 p.2.1 p.2.2.1 p.2.2.2)

/-! ### Messages -/

/-- `InstantiateMsg` of the contracts: what will be their configuration, and for the rewards contract its parameters -/
inductive Order
  | verifier (cfg : VV.Config)
  | gateway (cfg : Gateway.Config)
  | router (cfg : Router.Config)
  | nexus (cfg : Nexus.Config)
  | registry (governance : Addr)
  | rewards (cfg : Rewards.Config) (p : Rewards.Params)
  | multisig (cfg : Multisig.Config)
  | prover (admin : Addr) (cfg : Prover.Config) (service : Str) (keyType : Multisig.KeyType)
  deriving DecidableEq

/-- the configuration that is saved (`voting-verifier/src/contract.rs:12-32`, `gateway/src/contract.rs:15-27`,
`connection-router/src/contract.rs:13-41`, `nexus-gateway/src/contract.rs:14-28`, `service-registry/src/contract.rs:19-32`,
`rewards/src/contract.rs:18-30`, `multisig/src/contract.rs:19-31`, `multisig-prover/src/contract.rs:23-51`) -/
def Order.conf : Order → Conf
  | .verifier c => .verifier c
  | .gateway c => .gateway c
  | .router c => .router c
  | .nexus c => .nexus c
  | .registry g => .registry g
  | .rewards c _ => .rewards c
  | .multisig c => .multisig c
  | .prover a c sv kt => .prover a c sv kt

/-- The contract there is then.  The rewards contract keeps the height of the block as the start of epoch 0
(`rewards/src/contract.rs:32-43`). -/
def Order.kind (height : Nat) : Order → Kind
  | .verifier c => .verifier c
  | .gateway c => .gateway c
  | .router c => .router c
  | .nexus c => .nexus c
  | .registry g => .registry g
  | .rewards c p => .rewards c p height
  | .multisig c => .multisig c
  | .prover _ c sv kt => .prover c sv kt

/-- `voting-verifier/src/msg.rs:11-23`, `gateway/src/msg.rs:4-8`, `connection-router/src/msg.rs:4-12`,
`nexus-gateway/src/msg.rs:5-9`, `service-registry/src/msg.rs:5-8`, `rewards/src/msg.rs:4-9`, `multisig/src/msg.rs:11-17`,
`multisig-prover/src/msg.rs:9-23` (`InstantiateMsg`) -/
def jsonOrder (T : Texts) : Order → Json
  | .verifier c => .obj [("service_registry_address".toList, .str (T.text c.serviceRegistry)),
      ("service_name".toList, .str c.serviceName), ("source_gateway_address".toList, .str c.sourceGateway),
      ("voting_threshold".toList, jsonMajority c.threshold), ("block_expiry".toList, .nat c.blockExpiry),
      ("confirmation_height".toList, .nat c.confirmationHeight), ("source_chain".toList, .str c.sourceChain),
      ("rewards_address".toList, .str (T.text c.rewards))]
  | .gateway c => .obj [("verifier_address".toList, .str (T.text c.verifier)),
      ("router_address".toList, .str (T.text c.router))]
  | .router c => .obj [("admin_address".toList, .str (T.text c.admin)),
      ("governance_address".toList, .str (T.text c.governance)), ("nexus_gateway".toList, .str (T.text c.nexusGateway))]
  | .nexus c => .obj [("nexus".toList, .str (T.text c.nexus)), ("router".toList, .str (T.text c.router))]
  | .registry g => .obj [("governance_account".toList, .str (T.text g))]
  | .rewards c p => .obj [("governance_address".toList, .str (T.text c.governance)), ("rewards_denom".toList, .str c.denom),
      ("params".toList, jsonParams p)]
  | .multisig c => .obj [("governance_address".toList, .str (T.text c.governance)),
      ("rewards_address".toList, .str (T.text c.rewards)), ("grace_period".toList, .nat c.gracePeriod)]
  | .prover admin c sv kt => .obj [("admin_address".toList, .str (T.text admin)),
      ("gateway_address".toList, .str (T.text c.gateway)), ("multisig_address".toList, .str (T.text c.multisig)),
      ("service_registry_address".toList, .str (T.text c.serviceRegistry)),
      ("voting_verifier_address".toList, .str (T.text c.votingVerifier)),
      ("destination_chain_id".toList, jsonUint c.destinationChainId),
      ("signing_threshold".toList, jsonMajority c.signingThreshold), ("service_name".toList, .str sv),
      ("chain_name".toList, .str c.chainName), ("worker_set_diff_threshold".toList, .nat c.diffThreshold),
      ("encoder".toList, .str (encoderName c.encoder)), ("key_type".toList, .str (keyTypeName kt))]

/-- The same, read by `instantiate`.  The name of the prover's chain is a `String` in the message, checked by
`multisig-prover/src/contract.rs:43-44`. -/
def asOrder (L : Lowering) (T : Texts) : Party → Json → Option Order
  | .verifier, j => (asVerifierFields L T (asTextAddr T) (structOf ["service_registry_address".toList, "service_name".toList,
      "source_gateway_address".toList, "voting_threshold".toList, "block_expiry".toList, "confirmation_height".toList,
      "source_chain".toList, "rewards_address".toList] j)).map .verifier
  | .gateway, j => (two "verifier_address".toList "router_address".toList (asAddr T) (asAddr T) j).map
      (fun p => .gateway ⟨p.1, p.2⟩)
  | .router, j => (asThree "admin_address".toList "governance_address".toList "nexus_gateway".toList (asAddr T) (asAddr T)
      (asAddr T) j).map (fun p => .router ⟨p.1, p.2.1, p.2.2⟩)
  | .nexus, j => (two "nexus".toList "router".toList (asAddr T) (asAddr T) j).map (fun p => .nexus ⟨p.1, p.2⟩)
  | .registry, j => (one "governance_account".toList (asAddr T) j).map .registry
  | .rewards, j => (asThree "governance_address".toList "rewards_denom".toList "params".toList (asAddr T) asStr asParams j).map
      (fun p => .rewards ⟨p.1, p.2.1⟩ p.2.2)
  | .multisig, j => (asThree "governance_address".toList "rewards_address".toList "grace_period".toList (asAddr T) (asAddr T)
      (asNat u64Max) j).map (fun p => .multisig ⟨p.1, p.2.1, p.2.2⟩)
  | .prover, j => (asProverFields L T (structOf ["admin_address".toList, "gateway_address".toList, "multisig_address".toList,
      "service_registry_address".toList, "voting_verifier_address".toList, "destination_chain_id".toList,
      "signing_threshold".toList, "service_name".toList, "chain_name".toList, "worker_set_diff_threshold".toList,
      "encoder".toList, "key_type".toList] j)).map (fun p => .prover p.1 p.2.1 p.2.2.1 p.2.2.2)

variable (G : Texture)

/-- the entry point `instantiate` reads its message -/
def readOrder (p : Party) (text : Str) : Option Order := (fromStr G.finite text).bind (asOrder G.L G.T p)

/-- the text that instantiates a contract -/
def writeOrder (o : Order) : Str := (jsonOrder G.T o).render

/-- the text under `CONFIG` after instantiation -/
def keptConf (o : Order) : Str := (jsonConf G.T o.conf).render

/-- `CONFIG.load` -/
def loadConf (p : Party) (text : Str) : Option Conf := (fromStr G.finite text).bind (asConf G.L G.T p)

end Amp.Wire
