import Verif.Wire.DeployTextSpec
import Verif.Wire.Log
import Verif.Wire.SuiEventsSpec
import Verif.Wire.Props
import Verif.Chain.LogProps

/-!
# Specification for C113: workers that run the daemon, in terms of texts and bytes only

`Chain.Watched` speaks of calls of the verifier and of decoded events.  Here, a worker is judged by the texts that it sends to the
chain, and by the attributes of the events that the chain hands out.
-/

namespace Amp.Wire

open Amp.Chain (Params Setup Entry)
open Amp.Router (ChainName Message)

/-- The source chain of a verifier: what the workers' nodes reply (`saw`), and which receipts with raw logs, or blocks with events as
JSON, are on the chain. -/
inductive TextSource
  | evm (K : Ampd.Evm.LogLib) (chain : Ampd.Evm.Chain) (saw : Addr → Ampd.Evm.Env Ampd.Evm.RawLog → Prop)
      (onChain : Ampd.Evm.Receipt Ampd.Evm.RawLog → Prop)
  | sui (saw : Addr → Ampd.Sui.Env Json → Prop) (onChain : Ampd.Sui.TxBlock Json → Prop)

variable (G : Texture)

/-- the daemon of worker `w`, configured for the verifier at `V`, hands `msg` for that verifier to its queue when it reads the raw
event, with some node replies that the worker saw -/
def TextSource.Answers (s : TextSource) (V w : Addr) (raw : RawEvent) (msg : Ampd.TxMsg) : Prop :=
  ∃ e, decodeEvent G.finite raw = some e ∧
    match s with
    | .evm K chain saw _ => ∃ E, saw w E ∧ Ampd.Evm.Bounded E.node ∧
        (⟨w, V, msg⟩ ∈ (Ampd.Evm.handleMessages G.L (Ampd.Evm.decodeLog K) (Evm.deserMessagesPoll G.L G.T) ⟨w, V, chain⟩ E
            (.abci e)).sent ∨
         ⟨w, V, msg⟩ ∈ (Ampd.Evm.handleWorkerSet (Ampd.Evm.decodeLog K) (Evm.deserWorkerSetPoll G.L G.T) ⟨w, V, chain⟩ E
            (.abci e)).sent)
    | .sui saw _ => ∃ E, saw w E ∧
        (⟨w, V, msg⟩ ∈ (Ampd.Sui.handleMessages G.L suiJson (Sui.deserMessagesPoll G.L G.T) ⟨w, V⟩ E (.abci e)).sent ∨
         ⟨w, V, msg⟩ ∈ (Ampd.Sui.handleWorkerSet suiJson (Sui.deserWorkerSetPoll G.T) ⟨w, V⟩ E (.abci e)).sent)

/-- what final blocks the worker's nodes show are on the chain -/
def TextSource.Truthful (s : TextSource) (confirmations : Nat) (w : Addr) : Prop :=
  match s with
  | .evm _ chain saw onChain => Ampd.Evm.TruthfulNodes chain confirmations saw onChain w
  | .sui saw onChain => Ampd.Sui.TruthfulNodes saw onChain w

/-- Every text that worker `w` ever sends to the verifier at `V` and that is a vote is what its daemon writes upon one of the events
that the chain hands out; and the nodes that the daemon asks tell the truth. -/
def TextHonest (P : Params) (ts : List TextStep) (s : TextSource) (vc : VV.Config) (V w : Addr) : Prop :=
  (∀ t, .tx t ∈ ts → t.sender = w → ∀ m ∈ t.msgs, m.1 = V →
    (∃ id votes, readFor G .verifier m.2.2 = some (.verifier (.vote id votes))) →
    ∃ raw ∈ eventStream G.T (textDeployedLog G P ts), ∃ msg, s.Answers G V w raw msg ∧ m.2.2 = (jsonMsg msg).render) ∧
  s.Truthful vc.confirmationHeight w

/-- Whenever the verifier at `V` opened a poll, every quorum of the workers that the service registry named at that
moment contained an honest one (as `Chain.Watched`). -/
def TextWatched (P : Params) (ts : List TextStep) (l : List Entry) (V : Addr) (vc : VV.Config) (s : TextSource) : Prop :=
  ∀ l₁ e l₂, l = l₁ ++ e :: l₂ → e.p.target = V → ∀ c r pm, e.act = .verifier c r → VV.startedMeta r = some pm →
    ∀ ws, Chain.askWorkers (Chain.worldOf P (textSetup G ts) l₁) vc.serviceRegistry vc.serviceName vc.sourceChain = some ws →
    ∀ voters : List Addr, voters.Nodup → (∀ a ∈ voters, ∃ w ∈ ws, w.address = a) →
    ws.length * vc.threshold.num ≤ voters.length * vc.threshold.den →
    ∃ a ∈ voters, TextHonest G P ts s vc V a

/-- the verifiers of all gateways that were ever registered at the router are watched by honest workers -/
def AllTextWatched (P : Params) (ts : List TextStep) (l : List Entry) (R : Addr) (source : Addr → TextSource) : Prop :=
  ∀ n g gc vc, Chain.WasGateway P (textSetup G ts) l R n g → textSetup G ts g = some (.gateway gc) →
    textSetup G ts gc.verifier = some (.verifier vc) → TextWatched G P ts l gc.verifier vc (source gc.verifier)

/-- The source chain shows the message, at the configured gateway, in the transaction and at the index that its id names: in the
bytes of a log, or in the JSON of an event. -/
def TextSource.Shows (s : TextSource) (vc : VV.Config) (m : Message) : Prop :=
  match s with
  | .evm K _ _ onChain => ∃ tx i h gateway src dest r,
      VV.parseMessageId m.ccId.id = some (tx, i) ∧ (reader G.finite G.T).hash tx = some h ∧
      ((reader G.finite G.T).attr vc.sourceGateway).bind (reader G.finite G.T).addr = some gateway ∧
      (reader G.finite G.T).addr m.sourceAddress = some src ∧ ChainName.parse G.L m.destinationChain = some dest ∧ onChain r ∧
      Ampd.Evm.ShowsCall K G.L gateway r ⟨h, i, m.destinationAddress, dest, src, m.payloadHash⟩
  | .sui _ onChain => ∃ tx i h gateway src dest b,
      VV.parseMessageId m.ccId.id = some (tx, i) ∧ (reader G.finite G.T).digest tx = some h ∧
      ((reader G.finite G.T).attr vc.sourceGateway).bind (reader G.finite G.T).suiAddr = some gateway ∧
      (reader G.finite G.T).suiAddr m.sourceAddress = some src ∧ ChainName.parse G.L m.destinationChain = some dest ∧ onChain b ∧
      ShowsSuiCall G.L gateway b ⟨h, i, m.destinationAddress, dest, src, m.payloadHash⟩

/-- topics are 32 bytes, data are bytes, on chains that are read through EVM nodes -/
def TextSource.Bytes (s : TextSource) : Prop :=
  match s with
  | .evm _ _ _ onChain => ∀ r, onChain r → ∀ l ∈ r.logs, Ampd.Evm.Words l.content
  | .sui _ _ => True

/-- `m` is shown by the chain that its id names: a gateway registered for that chain has a verifier for that chain, and the chain
shows `m` at the source gateway configured there -/
def OnSource (P : Params) (ts : List TextStep) (l : List Entry) (R : Addr) (source : Addr → TextSource) (m : Message) : Prop :=
  ∃ g gc vc, Chain.WasGateway P (textSetup G ts) l R m.ccId.chain g ∧ textSetup G ts g = some (.gateway gc) ∧
    textSetup G ts gc.verifier = some (.verifier vc) ∧ vc.sourceChain = m.ccId.chain ∧ (source gc.verifier).Shows G vc m

end Amp.Wire
