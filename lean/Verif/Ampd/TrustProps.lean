import Verif.Ampd.BallotProps

/-!
# C73: what verification says about the source chain

Contract and daemon together: a message that the verifier reports as verified was emitted on the source
chain, as long as every quorum of participants contains a worker that runs the daemon.
-/

namespace Amp.Ampd

open Amp.Std (Vote)
open Amp.Encoding (Bytes)
open Amp.Router (ChainName Lowering)

/-! ### Polls are started once -/

theorem nodup_filterMap_unique {α β : Type} {f : α → Option β} {l : List α} (h : (l.filterMap f).Nodup)
    {x y : α} {b : β} (hx : x ∈ l) (hy : y ∈ l) (hfx : f x = some b) (hfy : f y = some b) : x = y := by
  induction l with
  | nil => simp at hx
  | cons a t ih =>
    rw [List.filterMap_cons] at h
    cases hfa : f a with
    | none =>
      rw [hfa] at h
      rcases List.mem_cons.mp hx with rfl | hx
      · rw [hfa] at hfx; simp at hfx
      · rcases List.mem_cons.mp hy with rfl | hy
        · rw [hfa] at hfy; simp at hfy
        · exact ih h hx hy
    | some b' =>
      rw [hfa] at h
      obtain ⟨hn, ht⟩ := List.nodup_cons.mp h
      rcases List.mem_cons.mp hx with hxa | hxt
      · rcases List.mem_cons.mp hy with hya | hyt
        · rw [hxa, hya]
        · rw [hxa, hfa] at hfx
          simp only [Option.some.injEq] at hfx
          rw [hfx] at hn
          exact absurd (List.mem_filterMap.mpr ⟨y, hyt, hfy⟩) hn
      · rcases List.mem_cons.mp hy with hya | hyt
        · rw [hya, hfa] at hfy
          simp only [Option.some.injEq] at hfy
          rw [hfy] at hn
          exact absurd (List.mem_filterMap.mpr ⟨x, hxt, hfx⟩) hn
        · exact ih ht hxt hyt

/-- a poll id belongs to one call of the history -/
theorem started_unique (H : VV.Hashes) (cfg : VV.Config) (hv : cfg.Valid) (cs : List VV.Call)
    {e e' : VV.Call × VV.Resp} {pm pm' : VV.PollMeta} (he : e ∈ VV.history H cfg cs)
    (he' : e' ∈ VV.history H cfg cs) (h : VV.startedMeta e.2 = some pm) (h' : VV.startedMeta e'.2 = some pm')
    (hid : pm.pollId = pm'.pollId) : e = e' := by
  have hn : (VV.startedIds (VV.history H cfg cs)).Nodup := by
    rw [VV.C12_poll_ids H cfg hv cs]
    exact List.nodup_range'
  unfold VV.startedIds at hn
  exact nodup_filterMap_unique hn he he' (b := pm.pollId) (by rw [h]; rfl) (by rw [h', hid]; rfl)

/-! ### EVM chains -/

namespace Evm

variable {D : Type}

/-- The votes of worker `w` in the history are votes of the daemon: each is what one of its two handlers sends
upon an event of the history, in some environment that the worker saw. -/
def RunsDaemon (L : Lowering) (R : Reader) (decodeLog : D → Option GatewayEvent) (verifier : Addr) (chain : Chain)
    (saw : Addr → Env D → Prop) (log : List (VV.Call × VV.Resp)) (w : Addr) : Prop :=
  ∀ e ∈ log, e.1.sender = w → ∀ id votes, e.1.msg = .vote id votes →
    ∃ e0 ∈ log, ∃ ev E, e0.2.event = some ev ∧ saw w E ∧ Bounded E.node ∧
      (⟨w, verifier, .vote id votes⟩ ∈ (handleMessages L decodeLog (readMessagesPoll L R) ⟨w, verifier, chain⟩ E
          (.abci (announced verifier ev))).sent ∨
       ⟨w, verifier, .vote id votes⟩ ∈ (handleWorkerSet decodeLog (readWorkerSetPoll L R) ⟨w, verifier, chain⟩ E
          (.abci (announced verifier ev))).sent)

/-- The nodes of these workers tell the truth about final blocks: a receipt that is final according to the node
is on the chain. -/
def TruthfulNodes (chain : Chain) (confirmations : Nat) (saw : Addr → Env D → Prop)
    (onChain : Receipt D → Prop) (w : Addr) : Prop :=
  ∀ E h r b, saw w E → E.node.receipt h = some (some r) → r.blockNumber = some b →
    Final chain E.node confirmations b → onChain r

theorem started_of_ballot {L : Lowering} {R : Reader} {decodeLog : D → Option GatewayEvent} {hd : Handler}
    {E : Env D} {x : Addr} {ev : VV.Event} {t : ExecTx} {id : Nat} {votes : List Vote}
    (ht : t ∈ (handleMessages L decodeLog (readMessagesPoll L R) hd E (.abci (announced x ev))).sent)
    (hm : t.msg = .vote id votes) :
    ∃ confs pm p, ev = .messagesPollStarted confs pm ∧ pm.pollId = id ∧
      readMessagesPoll L R (x, ev) = some p := by
  obtain ⟨p, f, ⟨⟨ab, hab, _, hdes⟩, _⟩, _, rfl⟩ := handleMessages_sent ht
  simp only [Event.abci.injEq] at hab
  subst hab
  simp only [TxMsg.vote.injEq] at hm
  cases ev with
  | messagesPollStarted confs pm =>
    refine ⟨confs, pm, p, rfl, ?_, hdes⟩
    have := readPoll_some (show readPoll L R x pm (readAll (readMessage L R) confs) = some p from hdes)
    rw [← hm.1, this.2.1]
  | workerSetPollStarted _ _ _ _ => simp [announced, readMessagesPoll] at hdes
  | voted _ _ => simp [announced, readMessagesPoll] at hdes
  | pollEnded _ _ => simp [announced, readMessagesPoll] at hdes

theorem started_of_set_ballot {L : Lowering} {R : Reader} {decodeLog : D → Option GatewayEvent} {hd : Handler}
    {E : Env D} {x : Addr} {ev : VV.Event} {t : ExecTx} {id : Nat} {votes : List Vote}
    (ht : t ∈ (handleWorkerSet decodeLog (readWorkerSetPoll L R) hd E (.abci (announced x ev))).sent)
    (hm : t.msg = .vote id votes) :
    ∃ tx i o pm p, ev = .workerSetPollStarted tx i o pm ∧ pm.pollId = id ∧
      readWorkerSetPoll L R (x, ev) = some p := by
  obtain ⟨p, rr, v, ⟨⟨ab, hab, _, hdes⟩, _⟩, _, _, rfl⟩ := handleWorkerSet_sent ht
  simp only [Event.abci.injEq] at hab
  subst hab
  simp only [TxMsg.vote.injEq] at hm
  cases ev with
  | workerSetPollStarted tx i o pm =>
    refine ⟨tx, i, o, pm, p, rfl, ?_, hdes⟩
    have := readPoll_some (show readPoll L R x pm (readWorkerSet R tx i o) = some p from hdes)
    rw [← hm.1, this.2.1]
  | messagesPollStarted _ _ => simp [announced, readWorkerSetPoll] at hdes
  | voted _ _ => simp [announced, readWorkerSetPoll] at hdes
  | pollEnded _ _ => simp [announced, readWorkerSetPoll] at hdes

theorem readMessage_some {L : Lowering} {R : Reader} {c : VV.TxConfirmation} {m : Message}
    (h : readMessage L R c = some m) :
    R.hash c.txId = some m.txId ∧ m.eventIndex = c.eventIndex ∧ m.destinationAddress = c.destinationAddress ∧
      ChainName.parse L c.destinationChain = some m.destinationChain ∧
      R.addr c.sourceAddress = some m.sourceAddress ∧ m.payloadHash = c.payloadHash := by
  unfold readMessage at h
  cases h1 : R.hash c.txId with
  | none => rw [h1] at h; simp at h
  | some tx =>
    rw [h1] at h
    simp only at h
    cases h2 : ChainName.parse L c.destinationChain with
    | none => rw [h2] at h; simp at h
    | some d =>
      rw [h2] at h
      simp only at h
      cases h3 : R.addr c.sourceAddress with
      | none => rw [h3] at h; simp at h
      | some s =>
        rw [h3] at h
        simp only [Option.some.injEq] at h
        subst h
        exact ⟨rfl, rfl, rfl, rfl, rfl, rfl⟩

/-- the configuration does not change, so an event carries the configured gateway and confirmations -/
theorem started_config (H : VV.Hashes) (cfg : VV.Config) (hv : cfg.Valid) (cs : List VV.Call)
    {e : VV.Call × VV.Resp} {pm : VV.PollMeta} (he : e ∈ VV.history H cfg cs)
    (h : VV.startedMeta e.2 = some pm) :
    pm.sourceGateway = cfg.sourceGateway ∧ pm.confirmationHeight = cfg.confirmationHeight := by
  unfold VV.history at he
  rw [outs_eq_steps] at he
  obtain ⟨st, hst, rfl⟩ := List.mem_map.mp he
  obtain ⟨⟨cs₁, cs₂, rfl, hpre⟩, hx⟩ := steps_mem _ hst
  have hc : st.pre.config = cfg := by rw [hpre]; exact (VV.inv_reachable H hv cs₁).config
  have := VV.exec_pollStep hx
  cases this with
  | same hp hl hs hm => rw [hs] at h; simp at h
  | opened k ws snap n hw hsn hp hl hs hm =>
    rw [hs] at h
    simp only [Option.some.injEq] at h
    subst h
    rw [hc]
    exact ⟨rfl, rfl⟩
  | op id sp o p hsp hx hp hl hs ho => rw [hs] at h; simp at h

/-- If the verifier reports a message as verified, and every quorum of the workers asked contains one whose votes
are those of the daemon and whose node is truthful, then the configured gateway emitted the message: a receipt
on the chain shows the contract call, with the transaction and log index named in the message id and the same
source, destination and payload hash. -/
theorem C73_verified_emitted (H : VV.Hashes) (cfg : VV.Config) (hv : cfg.Valid) (cs : List VV.Call)
    (m : Router.Message) (hver : VV.msgStatus H (VV.stateAfter H cfg cs) m = .ok .verified)
    (L : Lowering) (R : Reader) (decodeLog : D → Option GatewayEvent) (verifier : Addr) (chain : Chain)
    (saw : Addr → Env D → Prop) (onChain : Receipt D → Prop)
    (hq : ∀ e ∈ VV.history H cfg cs, ∀ pm, VV.startedMeta e.2 = some pm → ∀ ws, e.1.workers = some ws →
      ∀ voters : List Addr, voters.Nodup →
      (∀ a ∈ voters, ∃ w ∈ ws, w.address = a) →
      ws.length * cfg.threshold.num ≤ voters.length * cfg.threshold.den →
      ∃ w ∈ voters, RunsDaemon L R decodeLog verifier chain saw (VV.history H cfg cs) w ∧
        TruthfulNodes chain cfg.confirmationHeight saw onChain w) :
    ∃ tx i h gateway src dest r,
      VV.parseMessageId m.ccId.id = some (tx, i) ∧ R.hash tx = some h ∧
      (R.attr cfg.sourceGateway).bind R.addr = some gateway ∧ R.addr m.sourceAddress = some src ∧
      ChainName.parse L m.destinationChain = some dest ∧ onChain r ∧
      Emitted L decodeLog gateway r ⟨h, i, m.destinationAddress, dest, src, m.payloadHash⟩ := by
  obtain ⟨c, r, batch, confs, pm, i, cf, ws, h1, h2, h3, h4, h5, h6, h7, voters, hnd, hvot, hquo⟩ :=
    VV.C09_verified_sound H cfg hv cs m hver
  obtain ⟨w, hw, hrun, htruth⟩ := hq (c, r) h1 pm (by simp [VV.startedMeta, h4]) ws h7 voters hnd (fun a ha => (hvot a ha).1) hquo
  obtain ⟨_, c', r', vs, g1, g2, g3, g4, _⟩ := hvot w hw
  obtain ⟨e0, k1, ev, E, k2, k3, k4, k5⟩ := hrun (c', r') g1 g2 pm.pollId vs g3
  have hstart : VV.startedMeta (c, r).2 = some pm := by simp [VV.startedMeta, h4]
  rcases k5 with k5 | k5
  · obtain ⟨confs', pm', p, rfl, hid, hread⟩ := started_of_ballot k5 rfl
    have hstart' : VV.startedMeta e0.2 = some pm' := by simp [VV.startedMeta, k2]
    have heq := started_unique H cfg hv cs h1 k1 hstart hstart' hid.symm
    subst heq
    rw [h4] at k2
    simp only [Option.some.injEq, VV.Event.messagesPollStarted.injEq] at k2
    obtain ⟨rfl, rfl⟩ := k2
    obtain ⟨q1, q2, q3, q4, q5, q6, q7, q8⟩ := readPoll_some
      (show readPoll L R verifier pm (readAll (readMessage L R) confs) = some p from hread)
    obtain ⟨dm, d1, d2⟩ := readAll_getElem q1 h6
    obtain ⟨hh, rc, b, s1, s2, s3, s4⟩ := C68_sound L decodeLog (readMessagesPoll L R) ⟨w, verifier, chain⟩ E _ k4 p _
      rfl hread _ _ _ k5 rfl i dm d2 g4
    obtain ⟨c1, c2⟩ := started_config H cfg hv cs h1 hstart
    rw [q6, c2] at s3
    have hon := htruth E hh rc b k3 s1 s2 s3
    obtain ⟨m1, m2, m3, m4, m5, m6⟩ := readMessage_some d1
    -- the confirmation of the message
    unfold VV.confirmationOf at h5
    cases hp : VV.parseMessageId m.ccId.id with
    | none => rw [hp] at h5; simp at h5
    | some y =>
      obtain ⟨tx, j⟩ := y
      rw [hp] at h5
      simp only [Except.ok.injEq] at h5
      subst h5
      simp only at m1 m2 m3 m4 m5 m6
      refine ⟨tx, j, dm.txId, p.sourceGateway, dm.sourceAddress, dm.destinationChain, rc, rfl, m1,
        by rw [← c1]; exact q7, m5, m4, hon, ?_⟩
      rw [← m2, ← m3, ← m6]
      exact s4
  · obtain ⟨tx, j, o, pm', p, rfl, hid, _⟩ := started_of_set_ballot k5 rfl
    have hstart' : VV.startedMeta e0.2 = some pm' := by simp [VV.startedMeta, k2]
    have heq := started_unique H cfg hv cs h1 k1 hstart hstart' hid.symm
    subst heq
    rw [h4] at k2
    simp at k2

/-! ### A concrete case: two workers run the daemon, the third votes against the facts -/

/-- strings are read as their code points -/
def exTrustReader : Reader := ⟨some, fun s => some (s.map Char.toNat), fun s => some (s.map Char.toNat), fun _ => none,
  fun _ => none⟩

/-- the receipt of the transaction `0xab` -/
def exReceipt : Receipt GatewayEvent where
  txHash := "0xab".toList.map Char.toNat
  blockNumber := some 80
  logs := [⟨"gw".toList.map Char.toNat,
    .contractCall ("0xs".toList.map Char.toNat) "avax".toList "0xd".toList [7],
    some ("0xab".toList.map Char.toNat), some 1⟩]

/-- the node knows this receipt only -/
def exTrustEnv : Env GatewayEvent where
  latestBlock := 101
  node := { finalizedBlock := none, blockNumber := some 100,
            receipt := fun h => some (if h = "0xab".toList.map Char.toNat then some exReceipt else none) }
  accepted := true
  order := id

/-- a poll, and the votes of workers 1, 3 and 2 -/
def exTrustCalls : List VV.Call :=
  [⟨100, 50, some VV.exWorkers, .verifyMessages [VV.exMsg]⟩,
   ⟨101, 1, none, .vote 1 [.succeededOnChain]⟩,
   ⟨101, 3, none, .vote 1 [.failedOnChain]⟩,
   ⟨102, 2, none, .vote 1 [.succeededOnChain]⟩]

/-- what worker `w` sends when the poll starts -/
def exTrustSent (w : Addr) : List ExecTx :=
  (handleMessages Router.asciiLower some (readMessagesPoll Router.asciiLower exTrustReader)
    ⟨w, 10, .other "eth".toList⟩ exTrustEnv
    (.abci (announced 10 (.messagesPollStarted
      [⟨"0xab".toList, 1, "0xd".toList, "avax".toList, "0xs".toList, [7]⟩]
      ⟨1, "eth".toList, "gw".toList, 1, 110, [1, 2, 3]⟩)))).sent

example : VV.msgStatus VV.exH (VV.stateAfter VV.exH VV.exCfg exTrustCalls) VV.exMsg = .ok .verified := by decide

theorem exTrust_history : (VV.history VV.exH VV.exCfg exTrustCalls).map (fun e => (e.1, e.2.event)) =
    [(⟨100, 50, some VV.exWorkers, .verifyMessages [VV.exMsg]⟩, some (.messagesPollStarted
      [⟨"0xab".toList, 1, "0xd".toList, "avax".toList, "0xs".toList, [7]⟩]
      ⟨1, "eth".toList, "gw".toList, 1, 110, [1, 2, 3]⟩)),
     (⟨101, 1, none, .vote 1 [.succeededOnChain]⟩, some (.voted 1 1)),
     (⟨101, 3, none, .vote 1 [.failedOnChain]⟩, some (.voted 1 3)),
     (⟨102, 2, none, .vote 1 [.succeededOnChain]⟩, some (.voted 1 2))] := by rfl

theorem exTrust_runs (w : Addr) (hw : w = 1 ∨ w = 2) :
    RunsDaemon Router.asciiLower exTrustReader some 10 (.other "eth".toList) (fun _ E => E = exTrustEnv)
      (VV.history VV.exH VV.exCfg exTrustCalls) w := by
  have hb : Bounded exTrustEnv.node := by
    constructor <;> intro x hx <;> (simp [exTrustEnv] at hx; try (subst hx; decide))
  have hmem : (⟨100, 50, some VV.exWorkers, .verifyMessages [VV.exMsg]⟩, some (.messagesPollStarted
      [⟨"0xab".toList, 1, "0xd".toList, "avax".toList, "0xs".toList, [7]⟩]
      ⟨1, "eth".toList, "gw".toList, 1, 110, [1, 2, 3]⟩)) ∈
      (VV.history VV.exH VV.exCfg exTrustCalls).map (fun e => (e.1, e.2.event)) := by
    rw [exTrust_history]; exact List.mem_cons_self ..
  obtain ⟨e0, h0, he0⟩ := List.mem_map.mp hmem
  intro e he hs id votes hm
  refine ⟨e0, h0, _, exTrustEnv, (Prod.mk.inj he0).2, rfl, hb, Or.inl ?_⟩
  have he' : (e.1, e.2.event) ∈ (VV.history VV.exH VV.exCfg exTrustCalls).map (fun e => (e.1, e.2.event)) :=
    List.mem_map_of_mem he
  rw [exTrust_history] at he'
  have hsent : (⟨w, 10, .vote id votes⟩ : ExecTx) ∈ exTrustSent w := by
    have h1 : exTrustSent 1 = [⟨1, 10, .vote 1 [.succeededOnChain]⟩] := by decide +kernel
    have h2 : exTrustSent 2 = [⟨2, 10, .vote 1 [.succeededOnChain]⟩] := by decide +kernel
    rcases List.mem_cons.mp he' with h | he'
    · rw [(Prod.mk.inj h).1] at hm; cases hm
    rcases List.mem_cons.mp he' with h | he'
    · rw [(Prod.mk.inj h).1] at hm hs
      cases hm
      have hw1 : w = 1 := hs.symm
      rw [hw1, h1]
      exact List.mem_cons_self ..
    rcases List.mem_cons.mp he' with h | he'
    · rw [(Prod.mk.inj h).1] at hs
      have hw3 : w = 3 := hs.symm
      subst hw3
      rcases hw with hw | hw <;> cases hw
    rcases List.mem_cons.mp he' with h | he'
    · rw [(Prod.mk.inj h).1] at hm hs
      cases hm
      have hw1 : w = 2 := hs.symm
      rw [hw1, h2]
      exact List.mem_cons_self ..
    · cases he'
  exact hsent

theorem exTrust_truthful (w : Addr) :
    TruthfulNodes (.other "eth".toList) VV.exCfg.confirmationHeight (fun _ E => E = exTrustEnv)
      (fun r => r = exReceipt) w := by
  intro E h r b hE hr _ _
  subst hE
  simp only [exTrustEnv, Option.some.injEq] at hr
  split at hr
  · simpa using hr.symm
  · simp at hr

/-- the hypotheses of `C73_verified_emitted` hold here -/
example : ∀ e ∈ VV.history VV.exH VV.exCfg exTrustCalls, ∀ pm, VV.startedMeta e.2 = some pm →
    ∀ ws, e.1.workers = some ws → ∀ voters : List Addr,
    voters.Nodup → (∀ a ∈ voters, ∃ w ∈ ws, w.address = a) →
    ws.length * VV.exCfg.threshold.num ≤ voters.length * VV.exCfg.threshold.den →
    ∃ w ∈ voters, RunsDaemon Router.asciiLower exTrustReader some 10 (.other "eth".toList) (fun _ E => E = exTrustEnv)
        (VV.history VV.exH VV.exCfg exTrustCalls) w ∧
      TruthfulNodes (.other "eth".toList) VV.exCfg.confirmationHeight (fun _ E => E = exTrustEnv)
        (fun r => r = exReceipt) w := by
  intro e he _ _ ws hws voters hnd hsub hq
  have he' : (e.1, e.2.event) ∈ (VV.history VV.exH VV.exCfg exTrustCalls).map (fun e => (e.1, e.2.event)) :=
    List.mem_map_of_mem he
  rw [exTrust_history] at he'
  have hw : ws = VV.exWorkers := by
    rcases List.mem_cons.mp he' with h | he'
    · rw [(Prod.mk.inj h).1] at hws; exact (Option.some.inj hws).symm
    rcases List.mem_cons.mp he' with h | he'
    · rw [(Prod.mk.inj h).1] at hws; cases hws
    rcases List.mem_cons.mp he' with h | he'
    · rw [(Prod.mk.inj h).1] at hws; cases hws
    rcases List.mem_cons.mp he' with h | he'
    · rw [(Prod.mk.inj h).1] at hws; cases hws
    · cases he'
  subst hw
  have h123 : ∀ a ∈ voters, a = 1 ∨ a = 2 ∨ a = 3 := by
    intro a ha
    obtain ⟨w, hw, rfl⟩ := hsub a ha
    simp only [VV.exWorkers, List.mem_cons, List.not_mem_nil, or_false] at hw
    rcases hw with rfl | rfl | rfl <;> simp
  have h12 : ∃ w ∈ voters, w = 1 ∨ w = 2 := by
    by_contra hno
    have h3 : ∀ a ∈ voters, a = 3 := by
      intro a ha
      rcases h123 a ha with h | h | h
      · exact absurd ⟨a, ha, Or.inl h⟩ hno
      · exact absurd ⟨a, ha, Or.inr h⟩ hno
      · exact h
    simp only [VV.exWorkers, VV.exCfg, List.length_cons, List.length_nil] at hq
    match voters, hnd, h3, hq with
    | [], _, _, hq => simp at hq
    | [_], _, _, hq => simp at hq
    | x :: y :: t, hnd, h3, _ =>
      have hx := h3 x (by simp)
      have hy := h3 y (by simp)
      subst hx; subst hy
      simp at hnd
  obtain ⟨w, hw, h⟩ := h12
  exact ⟨w, hw, exTrust_runs w h, exTrust_truthful w⟩

theorem readAll_operators {o os : List (Bytes × Nat)} (h : readAll readOperator o = some os) :
    os = o ∧ ∀ p ∈ o, p.1.length = 20 := by
  induction o generalizing os with
  | nil => simp only [readAll, Option.some.injEq] at h; subst h; simp
  | cons a t ih =>
    unfold readAll at h
    cases hf : readOperator a with
    | none => rw [hf] at h; simp at h
    | some b =>
      rw [hf] at h
      simp only at h
      cases ht : readAll readOperator t with
      | none => rw [ht] at h; simp at h
      | some bs =>
        rw [ht] at h
        simp only [Option.some.injEq] at h
        subst h
        unfold readOperator at hf
        split at hf
        · rename_i hl
          simp only [Option.some.injEq] at hf
          subst hf
          obtain ⟨rfl, h2⟩ := ih ht
          refine ⟨rfl, ?_⟩
          intro p hp
          rcases List.mem_cons.mp hp with rfl | hp
          · exact hl
          · exact h2 p hp
        · simp at hf

theorem readWorkerSet_some {R : Reader} {tx : Str} {i : Nat} {o : Std.Operators} {w : WorkerSet}
    (h : readWorkerSet R tx i o = some w) :
    R.hash tx = some w.txId ∧ w.eventIndex = i ∧ w.operators = o.weights ∧ w.threshold = o.threshold ∧
      ∀ p ∈ o.weights, p.1.length = 20 := by
  unfold readWorkerSet at h
  cases h1 : R.hash tx with
  | none => rw [h1] at h; simp at h
  | some hh =>
    rw [h1] at h
    simp only at h
    cases h2 : readAll readOperator o.weights with
    | none => rw [h2] at h; simp at h
    | some os =>
      rw [h2] at h
      simp only [Option.some.injEq] at h
      subst h
      obtain ⟨rfl, h3⟩ := readAll_operators h2
      exact ⟨rfl, rfl, rfl, rfl, h3⟩

/-- The same for worker sets: an operator set that the verifier reports as verified was made the operators of
the gateway on the source chain.  (Weights and threshold are `Uint256` in the contract.) -/
theorem C73_worker_set_transferred (H : VV.Hashes) (cfg : VV.Config) (hv : cfg.Valid) (cs : List VV.Call)
    (o : Std.Operators) (hver : VV.opsStatus H (VV.stateAfter H cfg cs) o = .ok .verified)
    (ho : (∀ p ∈ o.weights, p.2 ≤ u256Max) ∧ o.threshold ≤ u256Max)
    (L : Lowering) (R : Reader) (decodeLog : D → Option GatewayEvent) (verifier : Addr) (chain : Chain)
    (saw : Addr → Env D → Prop) (onChain : Receipt D → Prop)
    (hq : ∀ e ∈ VV.history H cfg cs, ∀ pm, VV.startedMeta e.2 = some pm → ∀ ws, e.1.workers = some ws →
      ∀ voters : List Addr, voters.Nodup →
      (∀ a ∈ voters, ∃ w ∈ ws, w.address = a) →
      ws.length * cfg.threshold.num ≤ voters.length * cfg.threshold.den →
      ∃ w ∈ voters, RunsDaemon L R decodeLog verifier chain saw (VV.history H cfg cs) w ∧
        TruthfulNodes chain cfg.confirmationHeight saw onChain w) :
    ∃ e ∈ VV.history H cfg cs, ∃ mid tx i h gateway r,
      e.1.msg = .verifyWorkerSet mid o ∧ VV.parseMessageId mid = some (tx, i) ∧ R.hash tx = some h ∧
      (R.attr cfg.sourceGateway).bind R.addr = some gateway ∧ onChain r ∧
      Transferred decodeLog gateway r ⟨h, i, o.weights, o.threshold⟩ := by
  obtain ⟨c, r, mid, tx, n, pm, ws, h1, h2, h3, h4, h7, voters, hnd, hvot, hquo⟩ :=
    VV.C16_worker_set_sound H cfg hv cs o hver
  obtain ⟨w, hw, hrun, htruth⟩ := hq (c, r) h1 pm (by simp [VV.startedMeta, h4]) ws h7 voters hnd (fun a ha => (hvot a ha).1) hquo
  obtain ⟨_, c', r', vs, g1, g2, g3, g4, _⟩ := hvot w hw
  obtain ⟨e0, k1, ev, E, k2, k3, k4, k5⟩ := hrun (c', r') g1 g2 pm.pollId vs g3
  have hstart : VV.startedMeta (c, r).2 = some pm := by simp [VV.startedMeta, h4]
  rcases k5 with k5 | k5
  · obtain ⟨confs', pm', p, rfl, hid, _⟩ := started_of_ballot k5 rfl
    have hstart' : VV.startedMeta e0.2 = some pm' := by simp [VV.startedMeta, k2]
    have heq := started_unique H cfg hv cs h1 k1 hstart hstart' hid.symm
    subst heq
    rw [h4] at k2
    simp at k2
  · obtain ⟨tx', j, o', pm', p, rfl, hid, hread⟩ := started_of_set_ballot k5 rfl
    have hstart' : VV.startedMeta e0.2 = some pm' := by simp [VV.startedMeta, k2]
    have heq := started_unique H cfg hv cs h1 k1 hstart hstart' hid.symm
    subst heq
    rw [h4] at k2
    simp only [Option.some.injEq, VV.Event.workerSetPollStarted.injEq] at k2
    obtain ⟨rfl, rfl, rfl, rfl⟩ := k2
    obtain ⟨q1, q2, q3, q4, q5, q6, q7, q8⟩ := readPoll_some
      (show readPoll L R verifier pm (readWorkerSet R tx n o) = some p from hread)
    obtain ⟨m1, m2, m3, m4, m5⟩ := readWorkerSet_some q1
    have hval : p.content.Valid := by
      unfold WorkerSet.Valid
      rw [m3, m4]
      exact ⟨fun x hx => ⟨m5 x hx, ho.1 x hx⟩, ho.2⟩
    obtain ⟨rc, b, s1, s2, s3, s4⟩ := C68_worker_set_sound decodeLog (readWorkerSetPoll L R) ⟨w, verifier, chain⟩ E _
      k4 p _ rfl hread hval _ _ _ k5 rfl (List.mem_of_getElem? g4)
    obtain ⟨c1, c2⟩ := started_config H cfg hv cs h1 hstart
    rw [q6, c2] at s3
    have hon := htruth E p.content.txId rc b k3 s1 s2 s3
    refine ⟨(c, r), h1, mid, tx, n, p.content.txId, p.sourceGateway, rc, h2, h3, m1, by rw [← c1]; exact q7, hon, ?_⟩
    have : p.content = ⟨p.content.txId, n, o.weights, o.threshold⟩ := by
      cases hcq : p.content
      rw [hcq] at m2 m3 m4
      simp only at m2 m3 m4
      rw [m2, m3, m4]
    rw [← this]
    exact s4

end Evm

/-! ### Sui -/

namespace Sui

variable {J : Type}

/-- the votes of worker `w` in the history are votes of the daemon -/
def RunsDaemon (L : Lowering) (R : Reader) (P : Json J) (verifier : Addr)
    (saw : Addr → Env J → Prop) (log : List (VV.Call × VV.Resp)) (w : Addr) : Prop :=
  ∀ e ∈ log, e.1.sender = w → ∀ id votes, e.1.msg = .vote id votes →
    ∃ e0 ∈ log, ∃ ev E, e0.2.event = some ev ∧ saw w E ∧
      (⟨w, verifier, .vote id votes⟩ ∈ (handleMessages L P (readMessagesPoll L R) ⟨w, verifier⟩ E
          (.abci (announced verifier ev))).sent ∨
       ⟨w, verifier, .vote id votes⟩ ∈ (handleWorkerSet P (readWorkerSetPoll R) ⟨w, verifier⟩ E
          (.abci (announced verifier ev))).sent)

/-- the transaction blocks that the nodes of the worker return, and that are in a checkpoint, are on the chain -/
def TruthfulNodes (saw : Addr → Env J → Prop) (onChain : TxBlock J → Prop) (w : Addr) : Prop :=
  ∀ E b, saw w E → ((∃ ds bs, E.node.multiGet ds = some bs ∧ b ∈ bs) ∨ ∃ d, E.node.getBlock d = some b) →
    b.checkpoint.isSome → onChain b

theorem started_of_ballot {L : Lowering} {R : Reader} {P : Json J} {hd : Handler}
    {E : Env J} {x : Addr} {ev : VV.Event} {t : ExecTx} {id : Nat} {votes : List Vote}
    (ht : t ∈ (handleMessages L P (readMessagesPoll L R) hd E (.abci (announced x ev))).sent)
    (hm : t.msg = .vote id votes) :
    ∃ confs pm p, ev = .messagesPollStarted confs pm ∧ pm.pollId = id ∧
      readMessagesPoll L R (x, ev) = some p := by
  obtain ⟨p, f, ⟨⟨ab, hab, _, hdes⟩, _⟩, _, rfl⟩ := handleMessages_sent ht
  simp only [Event.abci.injEq] at hab
  subst hab
  simp only [TxMsg.vote.injEq] at hm
  cases ev with
  | messagesPollStarted confs pm =>
    refine ⟨confs, pm, p, rfl, ?_, hdes⟩
    have := readPoll_some (show readPoll R x pm (readAll (readMessage L R) confs) = some p from hdes)
    rw [← hm.1, this.2.1]
  | workerSetPollStarted _ _ _ _ => simp [announced, readMessagesPoll] at hdes
  | voted _ _ => simp [announced, readMessagesPoll] at hdes
  | pollEnded _ _ => simp [announced, readMessagesPoll] at hdes

theorem started_of_set_ballot {R : Reader} {P : Json J} {hd : Handler}
    {E : Env J} {x : Addr} {ev : VV.Event} {t : ExecTx} {id : Nat} {votes : List Vote}
    (ht : t ∈ (handleWorkerSet P (readWorkerSetPoll R) hd E (.abci (announced x ev))).sent)
    (hm : t.msg = .vote id votes) :
    ∃ tx i o pm p, ev = .workerSetPollStarted tx i o pm ∧ pm.pollId = id ∧
      readWorkerSetPoll R (x, ev) = some p := by
  obtain ⟨p, rr, v, ⟨⟨ab, hab, _, hdes⟩, _⟩, _, _, rfl⟩ := handleWorkerSet_sent ht
  simp only [Event.abci.injEq] at hab
  subst hab
  simp only [TxMsg.vote.injEq] at hm
  cases ev with
  | workerSetPollStarted tx i o pm =>
    refine ⟨tx, i, o, pm, p, rfl, ?_, hdes⟩
    have := readPoll_some (show readPoll R x pm (readWorkerSet R tx i o) = some p from hdes)
    rw [← hm.1, this.2.1]
  | messagesPollStarted _ _ => simp [announced, readWorkerSetPoll] at hdes
  | voted _ _ => simp [announced, readWorkerSetPoll] at hdes
  | pollEnded _ _ => simp [announced, readWorkerSetPoll] at hdes

theorem readMessage_some {L : Lowering} {R : Reader} {c : VV.TxConfirmation} {m : Message}
    (h : readMessage L R c = some m) :
    R.digest c.txId = some m.txId ∧ m.eventIndex = c.eventIndex ∧ m.destinationAddress = c.destinationAddress ∧
      ChainName.parse L c.destinationChain = some m.destinationChain ∧
      R.suiAddr c.sourceAddress = some m.sourceAddress ∧ m.payloadHash = c.payloadHash := by
  unfold readMessage at h
  cases h1 : R.digest c.txId with
  | none => rw [h1] at h; simp at h
  | some tx =>
    rw [h1] at h
    simp only at h
    cases h2 : ChainName.parse L c.destinationChain with
    | none => rw [h2] at h; simp at h
    | some d =>
      rw [h2] at h
      simp only at h
      cases h3 : R.suiAddr c.sourceAddress with
      | none => rw [h3] at h; simp at h
      | some s =>
        rw [h3] at h
        simp only [Option.some.injEq] at h
        subst h
        exact ⟨rfl, rfl, rfl, rfl, rfl, rfl⟩

theorem readAll_weights {o os : List (Bytes × Nat)}
    (h : readAll (fun p : Bytes × Nat => if p.2 ≤ u128Max then some p else none) o = some os) :
    os = o ∧ ∀ p ∈ o, p.2 ≤ u128Max := by
  induction o generalizing os with
  | nil => simp only [readAll, Option.some.injEq] at h; subst h; simp
  | cons a t ih =>
    unfold readAll at h
    by_cases hl : a.2 ≤ u128Max
    · rw [if_pos hl] at h
      simp only at h
      cases ht : readAll (fun p : Bytes × Nat => if p.2 ≤ u128Max then some p else none) t with
      | none => rw [ht] at h; simp at h
      | some bs =>
        rw [ht] at h
        simp only [Option.some.injEq] at h
        subst h
        obtain ⟨rfl, h2⟩ := ih ht
        refine ⟨rfl, ?_⟩
        intro p hp
        rcases List.mem_cons.mp hp with rfl | hp
        · exact hl
        · exact h2 p hp
    · rw [if_neg hl] at h
      simp at h

theorem readWorkerSet_some {R : Reader} {tx : Str} {i : Nat} {o : Std.Operators} {w : WorkerSet}
    (h : readWorkerSet R tx i o = some w) :
    R.digest tx = some w.txId ∧ w.eventIndex = i ∧ w.operators = o.weights ∧ w.threshold = o.threshold ∧
      w.Valid := by
  unfold readWorkerSet at h
  cases h1 : R.digest tx with
  | none => rw [h1] at h; simp at h
  | some hh =>
    rw [h1] at h
    simp only at h
    cases h2 : readAll (fun p : Bytes × Nat => if p.2 ≤ u128Max then some p else none) o.weights with
    | none => rw [h2] at h; simp at h
    | some os =>
      rw [h2] at h
      simp only at h
      split at h
      · rename_i hth
        simp only [Option.some.injEq] at h
        subst h
        obtain ⟨rfl, h3⟩ := readAll_weights h2
        exact ⟨rfl, rfl, rfl, rfl, h3, hth⟩
      · simp at h

/-- C73 for messages from Sui. -/
theorem C73_verified_emitted (H : VV.Hashes) (cfg : VV.Config) (hv : cfg.Valid) (cs : List VV.Call)
    (m : Router.Message) (hver : VV.msgStatus H (VV.stateAfter H cfg cs) m = .ok .verified)
    (L : Lowering) (R : Reader) (P : Json J) (verifier : Addr)
    (saw : Addr → Env J → Prop) (onChain : TxBlock J → Prop)
    (hq : ∀ e ∈ VV.history H cfg cs, ∀ pm, VV.startedMeta e.2 = some pm → ∀ ws, e.1.workers = some ws →
      ∀ voters : List Addr, voters.Nodup →
      (∀ a ∈ voters, ∃ w ∈ ws, w.address = a) →
      ws.length * cfg.threshold.num ≤ voters.length * cfg.threshold.den →
      ∃ w ∈ voters, RunsDaemon L R P verifier saw (VV.history H cfg cs) w ∧ TruthfulNodes saw onChain w) :
    ∃ tx i h gateway src dest b,
      VV.parseMessageId m.ccId.id = some (tx, i) ∧ R.digest tx = some h ∧
      (R.attr cfg.sourceGateway).bind R.suiAddr = some gateway ∧ R.suiAddr m.sourceAddress = some src ∧
      ChainName.parse L m.destinationChain = some dest ∧ onChain b ∧
      Emitted L P gateway b ⟨h, i, m.destinationAddress, dest, src, m.payloadHash⟩ := by
  obtain ⟨c, r, batch, confs, pm, i, cf, ws, h1, h2, h3, h4, h5, h6, h7, voters, hnd, hvot, hquo⟩ :=
    VV.C09_verified_sound H cfg hv cs m hver
  obtain ⟨w, hw, hrun, htruth⟩ := hq (c, r) h1 pm (by simp [VV.startedMeta, h4]) ws h7 voters hnd (fun a ha => (hvot a ha).1) hquo
  obtain ⟨_, c', r', vs, g1, g2, g3, g4, _⟩ := hvot w hw
  obtain ⟨e0, k1, ev, E, k2, k3, k5⟩ := hrun (c', r') g1 g2 pm.pollId vs g3
  have hstart : VV.startedMeta (c, r).2 = some pm := by simp [VV.startedMeta, h4]
  rcases k5 with k5 | k5
  · obtain ⟨confs', pm', p, rfl, hid, hread⟩ := started_of_ballot k5 rfl
    have hstart' : VV.startedMeta e0.2 = some pm' := by simp [VV.startedMeta, k2]
    have heq := started_unique H cfg hv cs h1 k1 hstart hstart' hid.symm
    subst heq
    rw [h4] at k2
    simp only [Option.some.injEq, VV.Event.messagesPollStarted.injEq] at k2
    obtain ⟨rfl, rfl⟩ := k2
    obtain ⟨q1, q2, q3, q4, q5, q7⟩ := readPoll_some
      (show readPoll R verifier pm (readAll (readMessage L R) confs) = some p from hread)
    obtain ⟨dm, d1, d2⟩ := readAll_getElem q1 h6
    obtain ⟨bs, s1, b, s2, s4⟩ := C69_sound L P (readMessagesPoll L R) ⟨w, verifier⟩ E _ p _
      rfl hread _ _ _ k5 rfl i dm d2 g4
    obtain ⟨c1, c2⟩ := Evm.started_config H cfg hv cs h1 hstart
    have hon := htruth E b k3 (Or.inl ⟨_, bs, s1, s2⟩) s4.2.1
    obtain ⟨m1, m2, m3, m4, m5, m6⟩ := readMessage_some d1
    unfold VV.confirmationOf at h5
    cases hp : VV.parseMessageId m.ccId.id with
    | none => rw [hp] at h5; simp at h5
    | some y =>
      obtain ⟨tx, j⟩ := y
      rw [hp] at h5
      simp only [Except.ok.injEq] at h5
      subst h5
      simp only at m1 m2 m3 m4 m5 m6
      refine ⟨tx, j, dm.txId, p.sourceGateway, dm.sourceAddress, dm.destinationChain, b, rfl, m1,
        by rw [← c1]; exact q7, m5, m4, hon, ?_⟩
      rw [← m2, ← m3, ← m6]
      exact s4
  · obtain ⟨tx, j, o, pm', p, rfl, hid, _⟩ := started_of_set_ballot k5 rfl
    have hstart' : VV.startedMeta e0.2 = some pm' := by simp [VV.startedMeta, k2]
    have heq := started_unique H cfg hv cs h1 k1 hstart hstart' hid.symm
    subst heq
    rw [h4] at k2
    simp at k2

/-- C73 for worker sets of Sui. -/
theorem C73_worker_set_transferred (H : VV.Hashes) (cfg : VV.Config) (hv : cfg.Valid) (cs : List VV.Call)
    (o : Std.Operators) (hver : VV.opsStatus H (VV.stateAfter H cfg cs) o = .ok .verified)
    (L : Lowering) (R : Reader) (P : Json J) (verifier : Addr)
    (saw : Addr → Env J → Prop) (onChain : TxBlock J → Prop)
    (hq : ∀ e ∈ VV.history H cfg cs, ∀ pm, VV.startedMeta e.2 = some pm → ∀ ws, e.1.workers = some ws →
      ∀ voters : List Addr, voters.Nodup →
      (∀ a ∈ voters, ∃ w ∈ ws, w.address = a) →
      ws.length * cfg.threshold.num ≤ voters.length * cfg.threshold.den →
      ∃ w ∈ voters, RunsDaemon L R P verifier saw (VV.history H cfg cs) w ∧ TruthfulNodes saw onChain w) :
    ∃ e ∈ VV.history H cfg cs, ∃ mid tx i h gateway b,
      e.1.msg = .verifyWorkerSet mid o ∧ VV.parseMessageId mid = some (tx, i) ∧ R.digest tx = some h ∧
      (R.attr cfg.sourceGateway).bind R.suiAddr = some gateway ∧ onChain b ∧
      Transferred P gateway b ⟨h, i, o.weights, o.threshold⟩ := by
  obtain ⟨c, r, mid, tx, n, pm, ws, h1, h2, h3, h4, h7, voters, hnd, hvot, hquo⟩ :=
    VV.C16_worker_set_sound H cfg hv cs o hver
  obtain ⟨w, hw, hrun, htruth⟩ := hq (c, r) h1 pm (by simp [VV.startedMeta, h4]) ws h7 voters hnd (fun a ha => (hvot a ha).1) hquo
  obtain ⟨_, c', r', vs, g1, g2, g3, g4, _⟩ := hvot w hw
  obtain ⟨e0, k1, ev, E, k2, k3, k5⟩ := hrun (c', r') g1 g2 pm.pollId vs g3
  have hstart : VV.startedMeta (c, r).2 = some pm := by simp [VV.startedMeta, h4]
  rcases k5 with k5 | k5
  · obtain ⟨confs', pm', p, rfl, hid, _⟩ := started_of_ballot k5 rfl
    have hstart' : VV.startedMeta e0.2 = some pm' := by simp [VV.startedMeta, k2]
    have heq := started_unique H cfg hv cs h1 k1 hstart hstart' hid.symm
    subst heq
    rw [h4] at k2
    simp at k2
  · obtain ⟨tx', j, o', pm', p, rfl, hid, hread⟩ := started_of_set_ballot k5 rfl
    have hstart' : VV.startedMeta e0.2 = some pm' := by simp [VV.startedMeta, k2]
    have heq := started_unique H cfg hv cs h1 k1 hstart hstart' hid.symm
    subst heq
    rw [h4] at k2
    simp only [Option.some.injEq, VV.Event.workerSetPollStarted.injEq] at k2
    obtain ⟨rfl, rfl, rfl, rfl⟩ := k2
    obtain ⟨q1, q2, q3, q4, q5, q7⟩ := readPoll_some
      (show readPoll R verifier pm (readWorkerSet R tx n o) = some p from hread)
    obtain ⟨m1, m2, m3, m4, m5⟩ := readWorkerSet_some q1
    obtain ⟨b, s1, s4⟩ := C69_worker_set_sound P (readWorkerSetPoll R) ⟨w, verifier⟩ E _
      p _ rfl hread m5 _ _ _ k5 rfl (List.mem_of_getElem? g4)
    obtain ⟨c1, c2⟩ := Evm.started_config H cfg hv cs h1 hstart
    have hon := htruth E b k3 (Or.inr ⟨_, s1⟩) s4.2.1
    refine ⟨(c, r), h1, mid, tx, n, p.content.txId, p.sourceGateway, b, h2, h3, m1, by rw [← c1]; exact q7, hon, ?_⟩
    have : p.content = ⟨p.content.txId, n, o.weights, o.threshold⟩ := by
      cases hcq : p.content
      rw [hcq] at m2 m3 m4
      simp only at m2 m3 m4
      rw [m2, m3, m4]
    rw [← this]
    exact s4

end Sui

end Amp.Ampd
