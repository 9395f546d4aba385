import Verif.Chain.Spec
import Verif.Ampd.TrustProps

/-! # Vocabulary for statements about the contracts and the daemons together -/

namespace Amp.Chain

open Amp.Router (ChainName CCId Message Lowering)

/-- The source chain of a verifier: of which kind it is, how the daemons read events and contents, what the
workers' nodes reply (`saw`) and which receipts or transaction blocks are on the chain (`onChain`). -/
inductive Source : Type 1
  | evm (D : Type) (L : Lowering) (R : Ampd.Reader) (decodeLog : D → Option Ampd.Evm.GatewayEvent)
      (chain : Ampd.Evm.Chain) (saw : Addr → Ampd.Evm.Env D → Prop) (onChain : Ampd.Evm.Receipt D → Prop)
  | sui (J : Type) (L : Lowering) (R : Ampd.Reader) (json : Ampd.Sui.Json J)
      (saw : Addr → Ampd.Sui.Env J → Prop) (onChain : Ampd.Sui.TxBlock J → Prop)

/-- worker `a` runs the daemon for the verifier at `V`, with a truthful node -/
def Source.Honest (s : Source) (vc : VV.Config) (V : Addr) (log : List (VV.Call × VV.Resp)) (a : Addr) : Prop :=
  match s with
  | .evm _ L R decodeLog chain saw onChain => Ampd.Evm.RunsDaemon L R decodeLog V chain saw log a ∧
      Ampd.Evm.TruthfulNodes chain vc.confirmationHeight saw onChain a
  | .sui _ L R json saw onChain => Ampd.Sui.RunsDaemon L R json V saw log a ∧ Ampd.Sui.TruthfulNodes saw onChain a

/-- the configured gateway of the source chain emitted the message, in the transaction and at the index that its id
names -/
def Source.Emitted (s : Source) (vc : VV.Config) (m : Message) : Prop :=
  match s with
  | .evm _ L R decodeLog _ _ onChain => ∃ tx i h gateway src dest r,
      VV.parseMessageId m.ccId.id = some (tx, i) ∧ R.hash tx = some h ∧
      (R.attr vc.sourceGateway).bind R.addr = some gateway ∧ R.addr m.sourceAddress = some src ∧
      ChainName.parse L m.destinationChain = some dest ∧ onChain r ∧
      Ampd.Evm.Emitted L decodeLog gateway r ⟨h, i, m.destinationAddress, dest, src, m.payloadHash⟩
  | .sui _ L R json _ onChain => ∃ tx i h gateway src dest b,
      VV.parseMessageId m.ccId.id = some (tx, i) ∧ R.digest tx = some h ∧
      (R.attr vc.sourceGateway).bind R.suiAddr = some gateway ∧ R.suiAddr m.sourceAddress = some src ∧
      ChainName.parse L m.destinationChain = some dest ∧ onChain b ∧
      Ampd.Sui.Emitted L json gateway b ⟨h, i, m.destinationAddress, dest, src, m.payloadHash⟩

/-- the calls of the verifier at `V` with their responses -/
def verifierLog (V : Addr) (l : List Entry) : List (VV.Call × VV.Resp) :=
  (actsAt V l).filterMap (fun
    | .verifier c r => some (c, r)
    | _ => none)

/-- Whenever the verifier at `V` opened a poll, every quorum of the workers that the service registry named at that
moment contained an honest one. -/
def Watched (P : Params) (setup : Setup) (l : List Entry) (V : Addr) (vc : VV.Config) (s : Source) : Prop :=
  ∀ l₁ e l₂, l = l₁ ++ e :: l₂ → e.p.target = V → ∀ c r pm, e.act = .verifier c r → VV.startedMeta r = some pm →
    ∀ ws, askWorkers (worldOf P setup l₁) vc.serviceRegistry vc.serviceName vc.sourceChain = some ws →
    ∀ voters : List Addr, voters.Nodup → (∀ a ∈ voters, ∃ w ∈ ws, w.address = a) →
    ws.length * vc.threshold.num ≤ voters.length * vc.threshold.den →
    ∃ a ∈ voters, s.Honest vc V (verifierLog V l) a

/-- `g` was, at some moment, the gateway registered for chain `n` at the router at `R` -/
def WasGateway (P : Params) (setup : Setup) (l : List Entry) (R : Addr) (n : ChainName) (g : Addr) : Prop :=
  ∃ l₁ l₂, l = l₁ ++ l₂ ∧ registeredGateway (worldOf P setup l₁) R n = some g

/-- `m` was emitted on the chain that its id names: a gateway registered for that chain has a verifier for that
chain, and the source gateway configured there emitted `m` -/
def EmittedAtSource (P : Params) (setup : Setup) (l : List Entry) (R : Addr) (source : Addr → Source)
    (m : Message) : Prop :=
  ∃ g gc vc, WasGateway P setup l R m.ccId.chain g ∧ setup g = some (.gateway gc) ∧
    setup gc.verifier = some (.verifier vc) ∧ vc.sourceChain = m.ccId.chain ∧ (source gc.verifier).Emitted vc m

/-- the verifiers of all gateways that were ever registered at the router are watched by honest workers -/
def AllWatched (P : Params) (setup : Setup) (l : List Entry) (R : Addr) (source : Addr → Source) : Prop :=
  ∀ n g gc vc, WasGateway P setup l R n g → setup g = some (.gateway gc) →
    setup gc.verifier = some (.verifier vc) → Watched P setup l gc.verifier vc (source gc.verifier)

end Amp.Chain
