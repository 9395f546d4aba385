import Verif.Chain.ProverProps
import Verif.Ampd.EvmLogProps

/-!
# C110, on the network: what is delivered or signed is in a log of the source chain
-/

namespace Amp.Chain

open Amp.Router (ChainName CCId Message)
open Amp.Prover (QuorumSigned IsBatch dataDigest executeDataOf)
open Amp.Ampd.Evm (RawLog LogLib decodeLog Words ShowsCall)

/-! ### Specification -/

/-- `m` is in a log of the chain that its id names.  A gateway registered for that chain has a verifier for that chain;
if workers read that chain from EVM nodes, a receipt on that chain shows the contract call, byte for byte, as made at the
configured source gateway.  (For other chains, as in `EmittedAtSource`.) -/
def LoggedAtSource (P : Params) (setup : Setup) (l : List Entry) (R : Addr) (source : Addr → Source)
    (m : Message) : Prop :=
  ∃ g gc vc, WasGateway P setup l R m.ccId.chain g ∧ setup g = some (.gateway gc) ∧
    setup gc.verifier = some (.verifier vc) ∧ vc.sourceChain = m.ccId.chain ∧ (source gc.verifier).Emitted vc m ∧
    ∀ (K : LogLib) L Rd chain saw onChain, source gc.verifier = .evm RawLog L Rd (decodeLog K) chain saw onChain →
      (∀ r, onChain r → ∀ l ∈ r.logs, Words l.content) →
      ∃ tx i h gateway src dest r, VV.parseMessageId m.ccId.id = some (tx, i) ∧ Rd.hash tx = some h ∧
        (Rd.attr vc.sourceGateway).bind Rd.addr = some gateway ∧ Rd.addr m.sourceAddress = some src ∧
        ChainName.parse L m.destinationChain = some dest ∧ onChain r ∧
        ShowsCall K L gateway r ⟨h, i, m.destinationAddress, dest, src, m.payloadHash⟩

/-! ### Helper lemmas -/

theorem logged_of_emitted {P : Params} {setup : Setup} {l : List Entry} {R : Addr} {source : Addr → Source}
    {m : Message} (h : EmittedAtSource P setup l R source m) : LoggedAtSource P setup l R source m := by
  obtain ⟨g, gc, vc, h1, h2, h3, h4, h5⟩ := h
  refine ⟨g, gc, vc, h1, h2, h3, h4, h5, ?_⟩
  intro K L Rd chain saw onChain hs hw
  rw [hs] at h5
  obtain ⟨tx, i, hh, gateway, src, dest, r, k1, k2, k3, k4, k5, k6, k7⟩ := h5
  exact ⟨tx, i, hh, gateway, src, dest, r, k1, k2, k3, k4, k5, k6, Ampd.Evm.shows_of_emitted (hw r k6) k7⟩

/-! ### The property -/

/-- C110 with C75: what a gateway offers for its chain was injected by nexus or is in a log of the chain that its id
names. -/
theorem C110_delivered (P : Params) (setup : Setup) (txs : List Tx) (R : Addr) (rc : Router.Config)
    (nc : Nexus.Config) (hw : Wired setup (log P setup txs) R rc nc) (source : Addr → Source)
    (hwat : AllWatched P setup (log P setup txs) R source) (G : Addr) (gc : Gateway.Config)
    (hG : setup G = some (.gateway gc)) (hr : gc.router = R) (id : CCId) (m : Message)
    (h : askGateway (worldAfter P setup txs) G [id] = .ok [m]) :
    m.ccId = id ∧ (InjectedByNexus (log P setup txs) rc.nexusGateway nc m ∨
      LoggedAtSource P setup (log P setup txs) R source m) := by
  obtain ⟨h1, h2⟩ := C75_delivered_emitted P setup txs R rc nc hw source hwat G gc hG hr id m h
  exact ⟨h1, h2.imp_right logged_of_emitted⟩

/-- C110 with C76: what a quorum signed and what is shown as a completed proof was injected by nexus or is in a log of
the chain that its id names. -/
theorem C110_signed (P : Params) (setup : Setup) (txs : List Tx) (R : Addr) (rc : Router.Config)
    (nc : Nexus.Config) (hw : Wired setup (log P setup txs) R rc nc) (source : Addr → Source)
    (hwat : AllWatched P setup (log P setup txs) R source) (Q : Addr) (pc : Prover.Config) (sv : Str)
    (kt : Multisig.KeyType) (hQ : setup Q = some (.prover pc sv kt)) (mc : Multisig.Config)
    (hM : setup pc.multisig = some (.multisig mc)) (gc : Gateway.Config)
    (hG : setup pc.gateway = some (.gateway gc)) (hr : gc.router = R)
    (hd : SetsDistinctAt P (log P setup txs) pc.multisig) (sid : Nat) (p : Prover.Proof) (d : Encoding.Bytes)
    (h : askProof P (worldAfter P setup txs) Q sid = .ok p) (hc : p.status = .completed d) :
    ∃ l₁ e l₂ cur digest signers b ws msgs,
      log P setup txs = l₁ ++ e :: l₂ ∧ e.p.target = Q ∧ currentSet (worldOf P setup l₁) Q = some cur ∧
      QuorumSigned P.C cur digest signers ∧ dataDigest P.X pc.encoder b.data = .ok digest ∧
      IsBatch P.X pc ws msgs b ∧
      executeDataOf P.X pc.encoder p.data cur.threshold signers = .ok d ∧
      ∀ m ∈ msgs, InjectedByNexus (log P setup txs) rc.nexusGateway nc m ∨
        LoggedAtSource P setup (log P setup txs) R source m := by
  obtain ⟨l₁, e, l₂, cur, digest, signers, b, ws, msgs, h1, h2, h3, h4, h5, h6, h7, h8⟩ :=
    C76_signed_emitted P setup txs R rc nc hw source hwat Q pc sv kt hQ mc hM gc hG hr hd sid p d h hc
  exact ⟨l₁, e, l₂, cur, digest, signers, b, ws, msgs, h1, h2, h3, h4, h5, h6, h7,
    fun m hm => (h8 m hm).imp_right logged_of_emitted⟩

end Amp.Chain
