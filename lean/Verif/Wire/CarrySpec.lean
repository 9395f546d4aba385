import Verif.Wire.EndToEndSpec

/-!
# Specification for C114: what it takes to carry a message through, in terms of texts and bytes
-/

namespace Amp.Wire

open Amp.Chain (Params)
open Amp.Router (ChainName Message)

variable (G : Texture)

/-- the height of the block of a transaction -/
def TextStep.height? : TextStep → Option Nat
  | .tx t => some t.block.height
  | .found _ _ _ _ => none

/-- transactions come in the order of their blocks -/
def TextInOrder (ts : List TextStep) : Prop := (ts.filterMap TextStep.height?).Pairwise (· ≤ ·)

/-- Worker `a` reads the raw event of the poll `pm` with its daemon, and hands `msg` for the verifier at `V` to its queue; the node that
the daemon asks shows the contract call that `m` is about, at the gateway of the poll: in a final block, a log with the bytes that the
EVM writes for it; or, in a block with a checkpoint, an event with its JSON. -/
def TextSource.Confirms (s : TextSource) (V : Addr) (confs : List VV.TxConfirmation) (pm : VV.PollMeta) (m : Message) (a : Addr)
    (msg : Ampd.TxMsg) : Prop :=
  ∃ e, decodeEvent G.finite (publishVerifier G.T V (.messagesPollStarted confs pm)) = some e ∧
    match s with
    | .evm K chain saw _ => ∃ E tx i h gateway src dest r b, saw a E ∧ Ampd.Evm.Bounded E.node ∧ Ampd.Evm.Honest E.node ∧
        Ampd.Evm.Iterates E.order ∧ VV.parseMessageId m.ccId.id = some (tx, i) ∧ (reader G.finite G.T).hash tx = some h ∧
        ((reader G.finite G.T).attr pm.sourceGateway).bind (reader G.finite G.T).addr = some gateway ∧
        (reader G.finite G.T).addr m.sourceAddress = some src ∧ ChainName.parse G.L m.destinationChain = some dest ∧
        E.node.receipt h = some (some r) ∧ r.blockNumber = some b ∧ Ampd.Evm.Final chain E.node pm.confirmationHeight b ∧
        Ampd.Evm.WroteCall K.keccak G.L gateway r ⟨h, i, m.destinationAddress, dest, src, m.payloadHash⟩ ∧
        ⟨a, V, msg⟩ ∈ (Ampd.Evm.handleMessages G.L (Ampd.Evm.decodeLog K) (Evm.deserMessagesPoll G.L G.T) ⟨a, V, chain⟩ E
          (.abci e)).sent
    | .sui saw _ => ∃ E tx i h gateway src dest p bs b, saw a E ∧ Ampd.Evm.Iterates E.order ∧
        VV.parseMessageId m.ccId.id = some (tx, i) ∧ (reader G.finite G.T).digest tx = some h ∧
        ((reader G.finite G.T).attr pm.sourceGateway).bind (reader G.finite G.T).suiAddr = some gateway ∧
        (reader G.finite G.T).suiAddr m.sourceAddress = some src ∧ ChainName.parse G.L m.destinationChain = some dest ∧
        Sui.deserMessagesPoll G.L G.T e.attributes = some p ∧
        Ampd.Sui.Honest E.node (E.order (p.content.map Ampd.Sui.Message.txId)) ∧
        E.node.multiGet (E.order (p.content.map Ampd.Sui.Message.txId)) = some bs ∧ b ∈ bs ∧
        ShowsSuiCall G.L gateway b ⟨h, i, m.destinationAddress, dest, src, m.payloadHash⟩ ∧
        ⟨a, V, msg⟩ ∈ (Ampd.Sui.handleMessages G.L suiJson (Sui.deserMessagesPoll G.L G.T) ⟨a, V⟩ E (.abci e)).sent

/-- a transaction of `a` with this text for the contract at `c` succeeded, in a block below the height -/
def TextTaken (P : Params) (ts : List TextStep) (a c : Addr) (text : Str) (height : Nat) : Prop :=
  ∃ us t vs funds, ts = us ++ .tx t :: vs ∧ t.sender = a ∧ (c, funds, text) ∈ t.msgs ∧ t.block.height < height ∧
    ∃ x, execText G P (textDeployedWorld G P us) t = .ok x

/-- every text of `a` for the verifier at `V` that is a vote in the poll is one that its daemon writes upon the event -/
def OnlyDaemon (ts : List TextStep) (s : TextSource) (V : Addr) (confs : List VV.TxConfirmation) (pm : VV.PollMeta) (m : Message)
    (a : Addr) : Prop :=
  ∀ t, .tx t ∈ ts → t.sender = a → ∀ x ∈ t.msgs, x.1 = V →
    (∃ votes, readFor G .verifier x.2.2 = some (.verifier (.vote pm.pollId votes))) →
    ∃ msg, s.Confirms G V confs pm m a msg ∧ x.2.2 = (jsonMsg msg).render

end Amp.Wire
