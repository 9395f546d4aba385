import Verif.Chain.TrustSpec
import Verif.Chain.Props

/-!
# C75: what is delivered was emitted on the source chain
-/

namespace Amp.Chain

open Amp.Router (ChainName CCId Message Lowering)

variable {P : Params} {setup : Setup} {l l₁ l₂ : List Entry} {w : World} {a R : Addr} {e : Entry}
  {rc : Router.Config} {nc : Nexus.Config}

theorem verifierLog_eq (hi : Inv P setup l w) {vc : VV.Config} (hk : setup a = some (.verifier vc)) :
    verifierLog a l = VV.history P.H vc (verifierCalls a l) := by
  have h := hi.acts _ _ hk
  simp only [Matches] at h
  unfold verifierLog
  rw [h, List.filterMap_map]
  unfold VV.history verifierCalls
  conv_rhs => rw [← List.filterMap_some (l := outs _ _ _)]
  rfl

/-- every quorum of a poll that a watched verifier opened contained an honest worker -/
theorem watched_quorums (hi : Inv P setup l w) {vc : VV.Config} (hv : vc.Valid) (hk : setup a = some (.verifier vc))
    {s : Source} (hw : Watched P setup l a vc s) :
    ∀ e ∈ VV.history P.H vc (verifierCalls a l), ∀ pm, VV.startedMeta e.2 = some pm →
    ∀ ws, e.1.workers = some ws → ∀ voters : List Addr, voters.Nodup →
    (∀ a ∈ voters, ∃ w ∈ ws, w.address = a) →
    ws.length * vc.threshold.num ≤ voters.length * vc.threshold.den →
    ∃ x ∈ voters, s.Honest vc a (VV.history P.H vc (verifierCalls a l)) x := by
  intro x hx pm hpm ws hws voters h1 h2 h3
  obtain ⟨e, he, ht, ha⟩ := hi.verifier_entry hk hx
  obtain ⟨k₁, k₂, hl⟩ := List.append_of_mem he
  obtain ⟨c, r, g1, _, _, g2⟩ := hi.verifier_call hl hv (by rw [ht]; exact hk)
  rw [ha] at g1
  simp only [Act.verifier.injEq] at g1
  rw [g1.1, g2] at hws
  have := hw k₁ e k₂ hl ht x.1 x.2 pm ha hpm ws hws voters h1 h2 h3
  rw [verifierLog_eq hi hk] at this
  exact this

/-- a message that a watched verifier reports as verified was emitted -/
theorem emitted_of_verified (hi : Inv P setup l w) {vc : VV.Config} (hv : vc.Valid)
    (hk : setup a = some (.verifier vc)) {s : Source} (hw : Watched P setup l a vc s) {m : Message}
    (h : askVerifier P w a [m] = some [(m.ccId, true)]) : vc.sourceChain = m.ccId.chain ∧ s.Emitted vc m := by
  rw [askVerifier_one hi hk] at h
  constructor
  · obtain ⟨pc, sp, h1, h2, _, _⟩ := VV.verificationStatus_verified h
    have := VV.C13_source_chain_only P.H vc hv _ h1
    rw [← h2, this]
  · have hq := watched_quorums hi hv hk hw
    cases s with
    | evm D L R decodeLog chain saw onChain =>
      exact Ampd.Evm.C73_verified_emitted P.H vc hv _ m h L R decodeLog a chain saw onChain hq
    | sui J L R json saw onChain =>
      exact Ampd.Sui.C73_verified_emitted P.H vc hv _ m h L R json a saw onChain hq

theorem emitted_of_source (hi : Inv P setup l w) (hw : Wired setup l R rc nc) {source : Addr → Source}
    (hwat : AllWatched P setup l R source) {m : Message} (h : VerifiedAtSource P setup l w R m) :
    EmittedAtSource P setup l R source m := by
  obtain ⟨l₁, e, l₂, ms, g, gc, hl, _, _, hreg, hgc, _, hver⟩ := h
  have hwas : WasGateway P setup l R m.ccId.chain g := ⟨l₁, e :: l₂, hl, hreg⟩
  have hvc : ∃ vc, setup gc.verifier = some (.verifier vc) ∧ vc.Valid := by
    unfold registeredGateway at hreg
    rw [(hi.prefix hl).router_state hw.router] at hreg
    simp only [Option.map_eq_some_iff] at hreg
    obtain ⟨ep, hep, rfl⟩ := hreg
    obtain ⟨er, her, htr, hmr⟩ := registered_entry (hi.prefix hl) hw.router hep
    obtain ⟨gc', vc, h1, h2, h3⟩ := hw.gateways er (by rw [hl]; exact List.mem_append_left _ her) htr _ _ hmr
    rw [hgc] at h1
    simp only [Option.some.injEq, Kind.gateway.injEq] at h1
    subst h1
    exact ⟨vc, h2, h3⟩
  obtain ⟨vc, hk, hv⟩ := hvc
  obtain ⟨h1, h2⟩ := emitted_of_verified hi hv hk (hwat _ g gc vc hwas hgc hk) hver
  exact ⟨g, gc, vc, hwas, hgc, hk, h1, h2⟩

/-- C75: as long as, whenever a poll is opened, every quorum of the active workers contains one that runs the daemon
with a truthful node, what a gateway offers for its chain was injected by nexus or emitted, with these fields, by the
configured gateway of the chain its id names. -/
theorem C75_delivered_emitted (P : Params) (setup : Setup) (txs : List Tx) (R : Addr) (rc : Router.Config)
    (nc : Nexus.Config) (hw : Wired setup (log P setup txs) R rc nc) (source : Addr → Source)
    (hwat : AllWatched P setup (log P setup txs) R source) (G : Addr) (gc : Gateway.Config)
    (hG : setup G = some (.gateway gc)) (hr : gc.router = R) (id : CCId) (m : Message)
    (h : askGateway (worldAfter P setup txs) G [id] = .ok [m]) :
    m.ccId = id ∧ (InjectedByNexus (log P setup txs) rc.nexusGateway nc m ∨
      EmittedAtSource P setup (log P setup txs) R source m) := by
  obtain ⟨h1, h2⟩ := C72_delivered P setup txs R rc nc hw G gc hG hr id m h
  exact ⟨h1, h2.imp_right (emitted_of_source (inv P setup txs) hw hwat)⟩

/-- C75 for nexus: what the nexus module is given was emitted on the chain its id names. -/
theorem C75_to_nexus_emitted (P : Params) (setup : Setup) (txs : List Tx) (R : Addr) (rc : Router.Config)
    (nc : Nexus.Config) (hw : Wired setup (log P setup txs) R rc nc) (hn : nc.router = R) (source : Addr → Source)
    (hwat : AllWatched P setup (log P setup txs) R source) (e : Entry)
    (he : e ∈ log P setup txs) (ht : e.p.target = rc.nexusGateway) (c : Nexus.Call) (r : Nexus.Resp)
    (ha : e.act = .nexus c r) :
    r.toModule = r.forwarded.map Nexus.toNexus ∧
      ∀ m ∈ r.forwarded, EmittedAtSource P setup (log P setup txs) R source m := by
  obtain ⟨h1, h2⟩ := C72_to_nexus P setup txs R rc nc hw hn e he ht c r ha
  exact ⟨h1, fun m hm => emitted_of_source (inv P setup txs) hw hwat (h2 m hm)⟩

end Amp.Chain
