import Verif.Wire.EndToEndLemmas
import Verif.Wire.UsersProps

/-!
# C113: from the bytes of the source chain to the text that a relayer reads
-/

namespace Amp.Wire

open Amp.Chain (Params Setup Entry)
open Amp.Router (CCId Message)
open Amp.Encoding (Bytes)
open Amp.Prover (QuorumSigned IsBatch dataDigest executeDataOf)

variable {G : Texture} {P : Params}

/-! ### Helper lemmas -/

/-- a text of a worker that the verifier took for a vote -/
theorem vote_text (hG : Sound G) (hX : ∀ b, IsBytes (P.X.keccak b)) (ts : List TextStep) (hb : ∀ s ∈ ts, StepInRange s)
    (ha : TextApart G ts) {V : Addr} {vc : VV.Config} (hV : textSetup G ts V = some (.verifier vc))
    {x : VV.Call × VV.Resp} (hx : x ∈ Chain.verifierLog V (Chain.log P (textSetup G ts) (Chain.succeeded P (steps G ts))))
    {id : Nat} {votes : List Std.Vote} (hm : x.1.msg = .vote id votes) :
    ∃ t, .tx t ∈ ts ∧ t.sender = x.1.sender ∧ ∃ m ∈ t.msgs, m.1 = V ∧
      readFor G .verifier m.2.2 = some (.verifier (.vote id votes)) := by
  obtain ⟨e, he, ht, hact⟩ := Chain.mem_verifierLog.mp hx
  have hi := Chain.inv P (textSetup G ts) (Chain.succeeded P (steps G ts))
  obtain ⟨l₁, l₂, hl⟩ := List.append_of_mem he
  have hv := (C105_history (P := P) hG hX ts hb ha).2.2.2.2
  obtain ⟨c, r, a1, a2, a3, -⟩ := hi.verifier_call hl (hv _ _ hV) (by rw [ht]; exact hV)
  rw [hact] at a1
  simp only [Chain.Act.verifier.injEq] at a1
  obtain ⟨rfl, rfl⟩ := a1
  rw [hm] at a3
  obtain ⟨tx, htx, m, hmem, hp⟩ := Chain.vote_origin he a3
  obtain ⟨xs, h1, h2⟩ := succeeded_texts (G := G) (P := P) ts
  rw [h1] at htx
  obtain ⟨t, htm, rfl⟩ := List.mem_map.mp htx
  obtain ⟨m0, hm0, rfl⟩ := List.mem_map.mp hmem
  rw [hp] at ht a2 a3
  dsimp only at ht
  refine ⟨t, h2 t htm, a2.symm, m0, hm0, ht, ?_⟩
  have a4 : meant G (textSetup G ts) m0.1 m0.2.2 = .verifier (.vote id votes) := a3
  unfold meant at a4
  rw [ht, hV] at a4
  dsimp only at a4
  change (match readFor G .verifier m0.2.2 with | some m => m | none => noise .verifier) = _ at a4
  cases hr : readFor G .verifier m0.2.2 with
  | none => rw [hr] at a4; simp [noise] at a4
  | some m => rw [hr] at a4; rw [← a4]

/-- an event of the chain to which the daemon answers is one of its verifier, and the daemon does with it what
`Chain.Source` says -/
theorem answers_own (hG : Sound G) (hX : ∀ b, IsBytes (P.X.keccak b)) (ts : List TextStep) (hb : ∀ s ∈ ts, StepInRange s)
    (ha : TextApart G ts) {V w : Addr} {s : TextSource} {raw : RawEvent}
    (hraw : raw ∈ eventStream G.T (textDeployedLog G P ts)) {msg : Ampd.TxMsg} (h : s.Answers G V w raw msg) :
    ∃ e0 ∈ Chain.verifierLog V (Chain.log P (textSetup G ts) (Chain.succeeded P (steps G ts))), ∃ ev,
      e0.2.event = some ev ∧ (∃ id votes, msg = .vote id votes ∧ id ≤ u64Max) ∧
      match s with
      | .evm K chain saw _ => ∃ E, saw w E ∧ Ampd.Evm.Bounded E.node ∧
          (⟨w, V, msg⟩ ∈ (Ampd.Evm.handleMessages G.L (Ampd.Evm.decodeLog K) (Ampd.Evm.readMessagesPoll G.L (reader G.finite G.T))
              ⟨w, V, chain⟩ E (.abci (Ampd.announced V ev))).sent ∨
           ⟨w, V, msg⟩ ∈ (Ampd.Evm.handleWorkerSet (Ampd.Evm.decodeLog K) (Ampd.Evm.readWorkerSetPoll G.L (reader G.finite G.T))
              ⟨w, V, chain⟩ E (.abci (Ampd.announced V ev))).sent)
      | .sui saw _ => ∃ E, saw w E ∧
          (⟨w, V, msg⟩ ∈ (Ampd.Sui.handleMessages G.L suiJson (Ampd.Sui.readMessagesPoll G.L (reader G.finite G.T))
              ⟨w, V⟩ E (.abci (Ampd.announced V ev))).sent ∨
           ⟨w, V, msg⟩ ∈ (Ampd.Sui.handleWorkerSet suiJson (Ampd.Sui.readWorkerSetPoll (reader G.finite G.T))
              ⟨w, V⟩ E (.abci (Ampd.announced V ev))).sent) := by
  rw [eventStream_blind (C105_history (P := P) hG hX ts hb ha).2.1] at hraw
  obtain ⟨en, hen, hin⟩ := List.mem_flatMap.mp hraw
  obtain ⟨e, hdec, h⟩ := h
  have hty := decodeEvent_type hdec
  have own : ∀ (name : Str), e.type = name →
      (name = "wasm-messages_poll_started".toList ∨ name = "wasm-worker_set_poll_started".toList) →
      ∃ c r ev, en.act = .verifier c r ∧ r.event = some ev ∧ raw = publishVerifier G.T en.p.target ev ∧ EventFits ev := by
    intro name hn hk
    obtain ⟨c, r, ev, a1, a2, a3⟩ := poll_event hin (by rw [← hty, hn]; exact hk)
    exact ⟨c, r, ev, a1, a2, a3, verifier_event_fits hG hX ts hb ha en hen a1 a2⟩
  cases s with
  | evm K chain saw onChain =>
    obtain ⟨E, hs, hbd, h⟩ := h
    rcases h with h | h
    · obtain ⟨p, f, ⟨⟨ab, hab, hnm, hdes⟩, hc, _⟩, _, _⟩ := Ampd.Evm.handleMessages_sent h
      simp only [Ampd.Event.abci.injEq] at hab
      obtain ⟨c, r, ev, a1, a2, a3, hf⟩ := own _ (by rw [hab]; exact hnm) (Or.inl rfl)
      obtain ⟨e', b1, b2, -⟩ := C94_evm_handlers (finite := G.finite) G.L hG.faithful (Ampd.Evm.decodeLog K) ⟨w, V, chain⟩ E en.p.target ev hf
      rw [← a3, hdec] at b1
      simp only [Option.some.injEq] at b1
      subst b1
      rw [b2] at h
      obtain ⟨o1, id, votes, o2, o3⟩ := evm_messages_own h hf
      dsimp only at o1 o2
      rw [o1] at h
      exact ⟨(c, r), Chain.mem_verifierLog.mpr ⟨en, hen, o1, a1⟩, ev, a2, ⟨id, votes, o2, o3⟩, E, hs, hbd, Or.inl h⟩
    · obtain ⟨p, rr, v, ⟨⟨ab, hab, hnm, hdes⟩, hc, _⟩, _, _, _⟩ := Ampd.Evm.handleWorkerSet_sent h
      simp only [Ampd.Event.abci.injEq] at hab
      obtain ⟨c, r, ev, a1, a2, a3, hf⟩ := own _ (by rw [hab]; exact hnm) (Or.inr rfl)
      obtain ⟨e', b1, -, b2⟩ := C94_evm_handlers (finite := G.finite) G.L hG.faithful (Ampd.Evm.decodeLog K) ⟨w, V, chain⟩ E en.p.target ev hf
      rw [← a3, hdec] at b1
      simp only [Option.some.injEq] at b1
      subst b1
      rw [b2] at h
      obtain ⟨o1, id, votes, o2, o3⟩ := evm_set_own h hf
      dsimp only at o1 o2
      rw [o1] at h
      exact ⟨(c, r), Chain.mem_verifierLog.mpr ⟨en, hen, o1, a1⟩, ev, a2, ⟨id, votes, o2, o3⟩, E, hs, hbd, Or.inr h⟩
  | sui saw onChain =>
    obtain ⟨E, hs, h⟩ := h
    rcases h with h | h
    · obtain ⟨p, f, ⟨⟨ab, hab, hnm, hdes⟩, hc, _⟩, _, _⟩ := Ampd.Sui.handleMessages_sent h
      simp only [Ampd.Event.abci.injEq] at hab
      obtain ⟨c, r, ev, a1, a2, a3, hf⟩ := own _ (by rw [hab]; exact hnm) (Or.inl rfl)
      obtain ⟨e', b1, b2, -⟩ := C94_sui_handlers (finite := G.finite) G.L hG.faithful suiJson ⟨w, V⟩ E en.p.target ev hf
      rw [← a3, hdec] at b1
      simp only [Option.some.injEq] at b1
      subst b1
      rw [b2] at h
      obtain ⟨o1, id, votes, o2, o3⟩ := sui_messages_own h hf
      dsimp only at o1 o2
      rw [o1] at h
      exact ⟨(c, r), Chain.mem_verifierLog.mpr ⟨en, hen, o1, a1⟩, ev, a2, ⟨id, votes, o2, o3⟩, E, hs, Or.inl h⟩
    · obtain ⟨p, rr, v, ⟨⟨ab, hab, hnm, hdes⟩, hc, _⟩, _, _, _⟩ := Ampd.Sui.handleWorkerSet_sent h
      simp only [Ampd.Event.abci.injEq] at hab
      obtain ⟨c, r, ev, a1, a2, a3, hf⟩ := own _ (by rw [hab]; exact hnm) (Or.inr rfl)
      obtain ⟨e', b1, -, b2⟩ := C94_sui_handlers (finite := G.finite) G.L hG.faithful suiJson ⟨w, V⟩ E en.p.target ev hf
      rw [← a3, hdec] at b1
      simp only [Option.some.injEq] at b1
      subst b1
      rw [b2] at h
      obtain ⟨o1, id, votes, o2, o3⟩ := sui_set_own h hf
      dsimp only at o1 o2
      rw [o1] at h
      exact ⟨(c, r), Chain.mem_verifierLog.mpr ⟨en, hen, o1, a1⟩, ev, a2, ⟨id, votes, o2, o3⟩, E, hs, Or.inr h⟩

/-! ### The property -/

/-- C113: A worker whose texts are those of its daemon is honest in the sense of C75: what the verifier takes for a vote of the worker
is what the daemon decides upon an event of that verifier. -/
theorem C113_honest (hG : Sound G) (hX : ∀ b, IsBytes (P.X.keccak b)) (ts : List TextStep) (hb : ∀ s ∈ ts, StepInRange s)
    (ha : TextApart G ts) (V : Addr) (vc : VV.Config) (hV : textSetup G ts V = some (.verifier vc)) (s : TextSource) (w : Addr)
    (h : TextHonest G P ts s vc V w) :
    (s.toSource G).Honest vc V (Chain.verifierLog V (Chain.log P (textSetup G ts) (Chain.succeeded P (steps G ts)))) w := by
  obtain ⟨h1, h2⟩ := h
  have key : ∀ e ∈ Chain.verifierLog V (Chain.log P (textSetup G ts) (Chain.succeeded P (steps G ts))), e.1.sender = w →
      ∀ id votes, e.1.msg = .vote id votes → ∃ raw ∈ eventStream G.T (textDeployedLog G P ts),
        s.Answers G V w raw (.vote id votes) := by
    intro e he hs id votes hm
    obtain ⟨t, ht, hts, m, hmm, hmV, hr⟩ := vote_text hG hX ts hb ha hV he hm
    obtain ⟨raw, hraw, msg, hans, htext⟩ := h1 t ht (hts.trans hs) m hmm hmV ⟨id, votes, hr⟩
    obtain ⟨-, -, -, -, ⟨id', votes', rfl, hid⟩, -⟩ := answers_own hG hX ts hb ha hraw hans
    have hrd := C94_vote hG id' votes' hid .verifier
    rw [← htext, hr, if_pos rfl] at hrd
    simp only [Option.some.injEq, Chain.Msg.verifier.injEq, VV.Msg.vote.injEq] at hrd
    obtain ⟨rfl, rfl⟩ := hrd
    exact ⟨raw, hraw, hans⟩
  cases s with
  | evm K chain saw onChain =>
    refine ⟨?_, h2⟩
    intro e he hs id votes hm
    obtain ⟨raw, hraw, hans⟩ := key e he hs id votes hm
    obtain ⟨e0, g1, ev, g2, -, E, g3, g4, g5⟩ := answers_own hG hX ts hb ha hraw hans
    exact ⟨e0, g1, ev, E, g2, g3, g4, g5⟩
  | sui saw onChain =>
    refine ⟨?_, h2⟩
    intro e he hs id votes hm
    obtain ⟨raw, hraw, hans⟩ := key e he hs id votes hm
    obtain ⟨e0, g1, ev, g2, -, E, g3, g5⟩ := answers_own hG hX ts hb ha hraw hans
    exact ⟨e0, g1, ev, E, g2, g3, g5⟩

theorem allWatched (hG : Sound G) (hX : ∀ b, IsBytes (P.X.keccak b)) (ts : List TextStep) (hb : ∀ s ∈ ts, StepInRange s)
    (ha : TextApart G ts) {R : Addr} {source : Addr → TextSource}
    (h : AllTextWatched G P ts (Chain.log P (textSetup G ts) (Chain.succeeded P (steps G ts))) R source) :
    Chain.AllWatched P (textSetup G ts) (Chain.log P (textSetup G ts) (Chain.succeeded P (steps G ts))) R
      (fun V => (source V).toSource G) := by
  intro n g gc vc hg hgc hvc l₁ e l₂ hl ht c r pm hact hst ws hws voters hnd hsub hq
  obtain ⟨a, hav, hon⟩ := h n g gc vc hg hgc hvc l₁ e l₂ hl ht c r pm hact hst ws hws voters hnd hsub hq
  exact ⟨a, hav, C113_honest hG hX ts hb ha _ vc hvc _ a hon⟩

theorem onSource_of_emitted {ts : List TextStep} {l : List Entry} {R : Addr} {source : Addr → TextSource}
    (hbytes : ∀ V, (source V).Bytes) {m : Message}
    (h : Chain.EmittedAtSource P (textSetup G ts) l R (fun V => (source V).toSource G) m) : OnSource G P ts l R source m := by
  obtain ⟨g, gc, vc, h1, h2, h3, h4, h5⟩ := h
  refine ⟨g, gc, vc, h1, h2, h3, h4, ?_⟩
  have hby := hbytes gc.verifier
  cases hs : source gc.verifier with
  | evm K chain saw onChain =>
    dsimp only at h5
    rw [hs] at h5 hby
    obtain ⟨tx, i, hh, gateway, src, dest, r, k1, k2, k3, k4, k5, k6, k7⟩ := h5
    exact ⟨tx, i, hh, gateway, src, dest, r, k1, k2, k3, k4, k5, k6, Ampd.Evm.shows_of_emitted (hby r k6) k7⟩
  | sui saw onChain =>
    dsimp only at h5
    rw [hs] at h5
    obtain ⟨tx, i, hh, gateway, src, dest, b, k1, k2, k3, k4, k5, k6, k7⟩ := h5
    exact ⟨tx, i, hh, gateway, src, dest, b, k1, k2, k3, k4, k5, k6, emitted_iff.mp k7⟩

theorem wired_text (hG : Sound G) (hX : ∀ b, IsBytes (P.X.keccak b)) (ts : List TextStep) (hb : ∀ s ∈ ts, StepInRange s)
    (ha : TextApart G ts) {R : Addr} {rc : Router.Config} {nc : Nexus.Config} (hR : textSetup G ts R = some (.router rc))
    (hN : textSetup G ts rc.nexusGateway = some (.nexus nc))
    (hg : ∀ e ∈ textDeployedLog G P ts, e.p.target = R → ∀ n g,
      e.p.msg = .router (.registerChain n g) ∨ e.p.msg = .router (.upgradeGateway n g) →
      ∃ gc vc, textSetup G ts g = some (.gateway gc) ∧ textSetup G ts gc.verifier = some (.verifier vc)) :
    Chain.Wired (textSetup G ts) (Chain.log P (textSetup G ts) (Chain.succeeded P (steps G ts))) R rc nc := by
  obtain ⟨-, h2, -, -, hv⟩ := C105_history (P := P) hG hX ts hb ha
  refine ⟨hR, hN, fun e he ht n g hm => ?_⟩
  have hmem : Entry.blind e ∈ (textDeployedLog G P ts).map Entry.blind := by
    rw [h2]; exact List.mem_map_of_mem he
  obtain ⟨e', he', hbl⟩ := List.mem_map.mp hmem
  have hp : e'.blind.p = e.blind.p := by rw [hbl]
  obtain ⟨gc, vc, x1, x2⟩ := hg e' he' (hp ▸ ht : e'.blind.p.target = R) n g (hp ▸ hm : e'.blind.p.msg = _ ∨ e'.blind.p.msg = _)
  exact ⟨gc, vc, x1, x2, hv _ _ x2⟩

/-- C113: From a chain without contracts, whatever texts are sent to it.  If the router, its nexus gateway, the gateways registered
there and their verifiers are contracts of this repository, and in every poll every quorum of the workers contains one that sends no
other votes than the texts of its daemon, with truthful nodes: a message that a gateway answers with was injected by nexus, or the chain
that its id names shows it, in the bytes of a log or the JSON of an event of the configured gateway. -/
theorem C113_delivered (hG : Sound G) (hX : ∀ b, IsBytes (P.X.keccak b)) (ts : List TextStep) (hb : ∀ s ∈ ts, StepInRange s)
    (ha : TextApart G ts) (l : List Entry) (hl : l = Chain.log P (textSetup G ts) (Chain.succeeded P (steps G ts)))
    (R : Addr) (rc : Router.Config) (nc : Nexus.Config)
    (hR : textSetup G ts R = some (.router rc)) (hN : textSetup G ts rc.nexusGateway = some (.nexus nc))
    (hg : ∀ e ∈ textDeployedLog G P ts, e.p.target = R → ∀ n g,
      e.p.msg = .router (.registerChain n g) ∨ e.p.msg = .router (.upgradeGateway n g) →
      ∃ gc vc, textSetup G ts g = some (.gateway gc) ∧ textSetup G ts gc.verifier = some (.verifier vc))
    (source : Addr → TextSource) (hbytes : ∀ V, (source V).Bytes) (hwat : AllTextWatched G P ts l R source)
    (a : Addr) (gc : Gateway.Config) (hga : textSetup G ts a = some (.gateway gc)) (hr : gc.router = R) (id : CCId) (m : Message)
    (h : Chain.askGateway (textDeployedWorld G P ts) a [id] = .ok [m]) :
    m.ccId = id ∧ (Chain.InjectedByNexus l rc.nexusGateway nc m ∨ OnSource G P ts l R source m) := by
  subst hl
  have hw := wired_text hG hX ts hb ha hR hN hg
  rw [(C105_history (P := P) hG hX ts hb ha).1] at h
  obtain ⟨h1, h2⟩ := Chain.C75_delivered_emitted P _ _ R rc nc hw _ (allWatched hG hX ts hb ha hwat) a gc hga hr id m h
  exact ⟨h1, h2.imp_right (onSource_of_emitted hbytes)⟩

/-- C113 with C111: what a relayer reads.  Under the same conditions, if the prover at `Q`, its multisig contract and its gateway are
contracts of this repository too, and no two worker sets and no two batches with a transfer share an id: the text of a completed proof
carries the execute data of content that a quorum of the prover's worker set signed; it approves exactly the messages whose ids it
shows, and each of those was injected by nexus, or is in the bytes of a log or the JSON of an event of the chain that its id names. -/
theorem C113_proof_partial (hG : Sound G) (hX : Octets P.X) (h4 : FourIds P.X) (ts : List TextStep)
    (hb : ∀ s ∈ ts, StepInRange s) (ha : TextApart G ts)
    (l : List Entry) (hl : l = Chain.log P (textSetup G ts) (Chain.succeeded P (steps G ts)))
    (R : Addr) (rc : Router.Config) (nc : Nexus.Config)
    (hR : textSetup G ts R = some (.router rc)) (hN : textSetup G ts rc.nexusGateway = some (.nexus nc))
    (hg : ∀ e ∈ textDeployedLog G P ts, e.p.target = R → ∀ n g,
      e.p.msg = .router (.registerChain n g) ∨ e.p.msg = .router (.upgradeGateway n g) →
      ∃ gc vc, textSetup G ts g = some (.gateway gc) ∧ textSetup G ts gc.verifier = some (.verifier vc))
    (source : Addr → TextSource) (hbytes : ∀ V, (source V).Bytes) (hwat : AllTextWatched G P ts l R source)
    (Q : Addr) (pc : Prover.Config) (sv : Str) (kt : Multisig.KeyType) (hQ : textSetup G ts Q = some (.prover pc sv kt))
    (mc : Multisig.Config) (hM : textSetup G ts pc.multisig = some (.multisig mc)) (gc : Gateway.Config)
    (hga : textSetup G ts pc.gateway = some (.gateway gc)) (hr : gc.router = R)
    (hd : Chain.SetsDistinctAt P l pc.multisig) (hi : Chain.BatchIdsApart P (textSetup G ts) l Q pc sv kt)
    (sid : Nat) (hsid : sid ≤ u64Max) (text : Str) (sid' : Nat) (p : Prover.Proof) (d : Bytes)
    (hask : query G P (textDeployedWorld G P ts) Q ((UserQuestion.proof sid).json G.T).render = some text)
    (hread : (UserQuestion.proof sid).readText G text = some (.proof sid' p)) (hc : p.status = .completed d) :
    sid' = sid ∧ ∃ l₁ e l₂ cur digest signers b ws msgs,
      l = l₁ ++ e :: l₂ ∧ e.p.target = Q ∧ Chain.currentSet (Chain.worldOf P (textSetup G ts) l₁) Q = some cur ∧
      IsBatch P.X pc ws msgs b ∧ p.data = b.data ∧ p.messageIds = msgs.map (·.ccId) ∧
      dataDigest P.X pc.encoder p.data = .ok digest ∧ QuorumSigned P.C cur digest signers ∧
      executeDataOf P.X pc.encoder p.data cur.threshold signers = .ok d ∧
      ∀ m ∈ msgs, Chain.InjectedByNexus l rc.nexusGateway nc m ∨ OnSource G P ts l R source m := by
  subst hl
  have hw := wired_text hG hX.keccak ts hb ha hR hN hg
  obtain ⟨x0, l₁, e, l₂, cur, digest, signers, b, ws, msgs, x1, x2, x3, x4, x5, x6, x7, x8, x9, x10⟩ :=
    C111_proof_partial hG hX h4 ts hb ha _ rfl _ rfl R rc nc hR hN
      (fun e he ht n g hm => by
        obtain ⟨gc, vc, y1, y2, -⟩ := hw.gateways e he ht n g hm
        exact ⟨gc, vc, y1, y2⟩)
      (fun V => (source V).toSource G) (allWatched hG hX.keccak ts hb ha hwat) Q pc sv kt hQ mc hM gc hga hr hd hi sid hsid text
      sid' p d hask hread hc
  refine ⟨x0, l₁, e, l₂, cur, digest, signers, b, ws, msgs, x1, x2, x3, x4, x5, x6, x7, x8, x9, fun m hm =>
    (x10 m hm).imp_right (fun h => ?_)⟩
  obtain ⟨g, gc', vc, y1, y2, y3, y4, y5, -⟩ := h
  exact onSource_of_emitted hbytes ⟨g, gc', vc, y1, y2, y3, y4, y5⟩

end Amp.Wire
