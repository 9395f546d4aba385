import Verif.Chain.DaemonsProps
import Verif.Prover.SetLemmas

/-!
# C89: asking for verification opens a poll
-/

namespace Amp.VV

open Amp.Router (Message)
open Amp.Std (counterIncr Snapshot)

/-- poll ids count the calls -/
theorem lastPollId_le (H : Hashes) (vc : Config) (cs : List Call) : (stateAfter H vc cs).lastPollId ≤ cs.length := by
  unfold stateAfter
  induction cs using List.reverseRecOn with
  | nil => exact Nat.le_refl _
  | append_singleton cs c ih =>
    rw [runCalls_append, runCalls_cons, runCalls_nil, List.length_append, List.length_singleton]
    cases hx : exec H (runCalls (exec H) (init vc) cs) c with
    | error e => simp only [commit]; omega
    | ok y =>
      obtain ⟨s', r⟩ := y
      simp only [commit]
      generalize hs : runCalls (exec H) (init vc) cs = s at hx ih
      cases hm : c.msg with
      | verifyMessages ms =>
        simp only [exec, hm] at hx
        obtain ⟨_, _, _, _, _, _, _, _, h⟩ := verifyMessages_ok hx
        rcases h with ⟨_, rfl, _⟩ | ⟨_, _, _, _, _, _, _, _, rfl⟩
        · omega
        · simp only; omega
      | vote id vs =>
        simp only [exec, hm] at hx
        obtain ⟨_, _, _, _, rfl, _⟩ := vote_ok hx
        simp only; omega
      | endPoll id =>
        simp only [exec, hm] at hx
        obtain ⟨_, _, _, _, rfl, _⟩ := endPoll_ok hx
        simp only; omega
      | verifyWorkerSet mid o =>
        simp only [exec, hm] at hx
        obtain ⟨_, _, _, _, _, _, _, _, _, rfl⟩ := verifyWorkerSet_ok hx
        simp only; omega

/-- a poll is opened for bonded workers -/
theorem verifyMessages_opens (H : Hashes) (s : State) (c : Call) (ms : List Message) (m : Message) (ws : List Registry.Worker)
    (hv : s.config.Valid) (hchain : ∀ m' ∈ ms, m'.ccId.chain = s.config.sourceChain)
    (hids : ∀ m' ∈ ms, ∃ cf, confirmationOf m' = .ok cf) (hst : ∀ m' ∈ ms, ∃ st, msgStatus H s m' = .ok st)
    (hm : m ∈ ms) (hneed : msgStatus H s m = .ok .notVerified ∨ msgStatus H s m = .ok .failedToVerify)
    (hw : c.workers = some ws) (hne : ws ≠ []) (hsz : ws.length ≤ u256Max)
    (hbond : ∀ w ∈ ws, ∃ n, w.bonding = .bonded n) (hid : s.lastPollId < u64Max)
    (hh : c.height + s.config.blockExpiry ≤ u64Max) (hlen : ms.length ≤ 2 ^ 32) :
    ∃ s' r confs snap, verifyMessages H s c ms = .ok (s', r) ∧ r.msgs = [] ∧
      Snapshot.new s.config.threshold (ws.map (fun w => (w.address, 1))) = .ok snap ∧
      mapE confirmationOf (pending H s ms) = .ok confs ∧
      r.event = some (.messagesPollStarted confs (metaOf s.config (s.lastPollId + 1) c.height snap)) := by
  obtain ⟨sts, hsts⟩ := mapE_ok_of_forall hst
  obtain ⟨ans, hans⟩ : ∃ ans, isVerified H s ms = .ok ans := by
    unfold isVerified
    apply mapE_ok_of_forall
    intro m' hm'
    obtain ⟨st, h⟩ := hst m' hm'
    unfold isVerified1
    rw [h]
    exact ⟨_, rfl⟩
  obtain ⟨ps, hps⟩ : ∃ ps, mapE participantOf ws = .ok ps := by
    apply mapE_ok_of_forall
    intro w hw
    obtain ⟨n, hn⟩ := hbond w hw
    unfold participantOf Registry.Worker.toParticipant
    rw [hn]
    exact ⟨_, rfl⟩
  have hps' := participants_eq hps
  obtain ⟨snap, hsnap⟩ := Std.C02_snapshot_total (ps := ws.map (fun w => (w.address, 1))) hv
    (by simpa using hne) (by
      intro e he
      obtain ⟨w, _, rfl⟩ := List.mem_map.mp he
      exact Nat.one_pos) (by rw [Prover.totalWeight_ones]; exact hsz)
  have hpend : pending H s ms ≠ [] := by
    have : m ∈ pending H s ms := by
      unfold pending
      refine List.mem_filter.mpr ⟨hm, ?_⟩
      rcases hneed with h | h <;> rw [h] <;> rfl
    exact List.ne_nil_of_mem this
  have hsub : ∀ m' ∈ pending H s ms, m' ∈ ms := fun m' h => (List.mem_filter.mp h).1
  obtain ⟨confs, hconfs⟩ := mapE_ok_of_forall (f := confirmationOf) (l := pending H s ms)
    (fun m' h => hids m' (hsub m' h))
  have hplen : (pending H s ms).length ≤ 2 ^ 32 := Nat.le_trans (List.length_filter_le _ _) hlen
  refine ⟨{ s with
        lastPollId := s.lastPollId + 1
        polls := s.polls.set (s.lastPollId + 1)
          ⟨.messages, Std.Poll.new (s.lastPollId + 1) snap (c.height + s.config.blockExpiry)
            (pending H s ms).length⟩
        pollMessages := saveMessages H (s.lastPollId + 1) 0 (pending H s ms) s.pollMessages },
    { data := .statuses ans
      event := some (.messagesPollStarted confs (metaOf s.config (s.lastPollId + 1) c.height snap)) },
    confs, snap, ?_, rfl, hsnap, hconfs, rfl⟩
  unfold verifyMessages
  rw [if_neg (List.ne_nil_of_mem hm), if_neg (by
    intro h
    obtain ⟨m', h1, h2⟩ := List.any_eq_true.mp h
    simp [hchain m' h1] at h2)]
  simp only [hans, hsts]
  rw [pending_eq hsts]
  simp only [if_neg hpend, takeSnapshot, hw, hps]
  rw [hps']
  simp only [hsnap, createPoll, counterIncr]
  rw [if_pos (by omega)]
  simp only
  rw [if_neg (by omega)]
  simp only
  rw [if_neg (by omega), hconfs]

end Amp.VV

namespace Amp.Chain

open Amp.Router (CCId Message)

variable {P : Params} {setup : Setup}

/-- the calls of a verifier are in the log -/
theorem verifierCalls_length (l : List Entry) (V : Addr) : (verifierCalls V l).length ≤ l.length := by
  unfold verifierCalls actsAt
  refine Nat.le_trans (List.length_filterMap_le _ _) ?_
  rw [List.length_map]
  exact List.length_filter_le _ _

/-- C89, asking: Whoever asks the gateway at `g`, in a transaction of its own, to verify a batch of messages with distinct
and readable ids from its chain opens a poll about every message of the batch that is not verified and in no poll: among
the active workers of that moment, until `blockExpiry` blocks later.  Messages of the batch that are verified or in polls
do no harm. -/
theorem C89_asked (P : Params) (setup : Setup) (txs : List Tx) (g : Addr) (gc : Gateway.Config)
    (hg : setup g = some (.gateway gc)) (vc : VV.Config) (hV : setup gc.verifier = some (.verifier vc)) (hv : vc.Valid)
    (hroom : (log P setup txs).length < u64Max) (ms : List Message) (hnd : (ms.map (·.ccId)).Nodup)
    (hchain : ∀ m ∈ ms, m.ccId.chain = vc.sourceChain) (hids : ∀ m ∈ ms, ∃ cf, VV.confirmationOf m = .ok cf)
    (hlen : ms.length ≤ 2 ^ 32) (hask : (askVerifier P (worldAfter P setup txs) gc.verifier ms).isSome)
    (hinj : ∀ m ∈ ms, ∀ m' ∈ ms, m'.hash P.H.msg = m.hash P.H.msg → m' = m)
    (ws : List Registry.Worker)
    (hws : askWorkers (worldAfter P setup txs) vc.serviceRegistry vc.serviceName vc.sourceChain = some ws)
    (hne : ws ≠ []) (hsz : ws.length ≤ u256Max) (tx : Tx) (funds : List Registry.Coin) (msg : Msg)
    (htx : tx.msgs = [(g, funds, msg)]) (hmsg : msg.toGateway = some (.verifyMessages ms))
    (hs : setup tx.sender = none) (hgas : 2 ≤ tx.gas) (hh : tx.block.height + vc.blockExpiry ≤ u64Max)
    (hopen : ∃ m ∈ ms, VV.msgStatus P.H (VV.stateAfter P.H vc (verifierCalls gc.verifier (log P setup txs))) m =
        .ok .notVerified ∨
      VV.msgStatus P.H (VV.stateAfter P.H vc (verifierCalls gc.verifier (log P setup txs))) m = .ok .failedToVerify) :
    (∃ x, exec P (worldAfter P setup txs) tx = .ok x) ∧
    ∃ confs pm, pm.sourceChain = vc.sourceChain ∧ pm.sourceGateway = vc.sourceGateway ∧
      pm.confirmationHeight = vc.confirmationHeight ∧ pm.expiresAt = tx.block.height + vc.blockExpiry ∧
      (∀ a, a ∈ pm.participants ↔ ∃ w ∈ ws, w.address = a) ∧
      ∀ m ∈ ms, (VV.msgStatus P.H (VV.stateAfter P.H vc (verifierCalls gc.verifier (log P setup txs))) m =
            .ok .notVerified ∨
          VV.msgStatus P.H (VV.stateAfter P.H vc (verifierCalls gc.verifier (log P setup txs))) m =
            .ok .failedToVerify) →
        ∃ cf ∈ confs, PollOpened P (log P setup (txs ++ [tx])) gc.verifier vc m ws confs pm cf := by
  have hi := inv P setup txs
  have wg := hi.gateway_state hg
  have wV := hi.verifier_state hV
  have cg := Gateway.config_reachable gc (gatewayCalls g (log P setup txs))
  have cV := (VV.inv_reachable P.H hv (verifierCalls gc.verifier (log P setup txs))).config
  have hsend : worldAfter P setup txs tx.sender = none := by rw [hi.world]; simp [worldOf, hs]
  obtain ⟨ans, hans⟩ := Option.isSome_iff_exists.mp hask
  generalize hst : VV.stateAfter P.H vc (verifierCalls gc.verifier (log P setup txs)) = s at *
  have hq : VV.isVerified P.H s ms = .ok ans := by
    unfold askVerifier at hans
    rw [wV] at hans
    simp only at hans
    cases hq : VV.isVerified P.H s ms with
    | error x => rw [hq] at hans; simp [answer] at hans
    | ok y => rw [hq] at hans; simp only [answer, Option.some.injEq] at hans; rw [hans]
  have hstat : ∀ m ∈ ms, ∃ st, VV.msgStatus P.H s m = .ok st := by
    intro m hm
    obtain ⟨b, _, hb⟩ := mapE_mem hq hm
    unfold VV.isVerified1 at hb
    cases h : VV.msgStatus P.H s m with
    | error x => rw [h] at hb; simp at hb
    | ok st => exact ⟨st, rfl⟩
  obtain ⟨hndw, hbond⟩ := askWorkers_distinct hi hws
  -- the gateway sends what is not verified
  generalize hu : ms.filter (fun m => !Gateway.isVerifiedIn (Gateway.collectMap ans) m) = u
  have husub : ∀ m ∈ u, m ∈ ms := by
    intro m hm
    rw [← hu] at hm
    exact (List.mem_filter.mp hm).1
  have huin : ∀ m ∈ ms, (VV.msgStatus P.H s m = .ok .notVerified ∨ VV.msgStatus P.H s m = .ok .failedToVerify) →
      m ∈ u := by
    intro m hm hneed
    rw [← hu]
    refine List.mem_filter.mpr ⟨hm, ?_⟩
    rw [Gateway.isVerifiedIn_eq ans]
    cases hr : Gateway.ReportedVerified ans m.ccId with
    | false => rfl
    | true =>
      have := isVerified_of_reported hnd hq hm hr
      rw [this] at hneed
      simp at hneed
  have hulen : u.length ≤ 2 ^ 32 := by
    rw [← hu]; exact Nat.le_trans (List.length_filter_le _ _) hlen
  obtain ⟨m0, hm0, hneed0⟩ := hopen
  have hune : u ≠ [] := List.ne_nil_of_mem (huin m0 hm0 hneed0)
  have hgx : Gateway.exec (Gateway.stateAfter gc (gatewayCalls g (log P setup txs)))
      ⟨tx.sender, askVerifier P (worldAfter P setup txs) gc.verifier, .verifyMessages ms⟩ =
        .ok (Gateway.stateAfter gc (gatewayCalls g (log P setup txs)), { out := [.verify gc.verifier u] }) := by
    simp only [Gateway.exec, Gateway.verifyMessages]
    rw [if_neg (List.ne_nil_of_mem hm0), hasDuplicates_false hnd]
    simp only [Bool.false_eq_true, if_false, Gateway.partitionByVerified, hans, List.partition_eq_filter_filter, cg]
    have hu' : ms.filter (not ∘ Gateway.isVerifiedIn (Gateway.collectMap ans)) = u := hu
    rw [hu', if_neg hune]
  -- the verifier opens a poll
  have hcount : s.lastPollId < u64Max := by
    rw [← hst]
    exact Nat.lt_of_le_of_lt (Nat.le_trans (VV.lastPollId_le _ _ _) (verifierCalls_length _ _)) hroom
  obtain ⟨s', r, confs, snap, hx, hr, hsnap, hconfs, hev⟩ := VV.verifyMessages_opens P.H s
    ⟨tx.block.height, g, some ws, .verifyMessages u⟩ u m0 ws (by rw [cV]; exact hv)
    (fun m hm => by rw [cV]; exact hchain m (husub m hm)) (fun m hm => hids m (husub m hm))
    (fun m hm => hstat m (husub m hm)) (huin m0 hm0 hneed0) hneed0 rfl hne hsz hbond hcount
    (by rw [cV]; exact hh) hulen
  have hvx : VV.exec P.H s ⟨tx.block.height, g, some ws, .verifyMessages u⟩ = .ok (s', r) := by
    simp only [VV.exec]; exact hx
  obtain ⟨k, hk⟩ : ∃ k, tx.gas = k + 2 := ⟨tx.gas - 2, by omega⟩
  have hexec : ∃ w' e1, exec P (worldAfter P setup txs) tx =
      .ok (w', [e1, ⟨⟨g, gc.verifier, [], .verifier (.verifyMessages u)⟩,
        .verifier ⟨tx.block.height, g, some ws, .verifyMessages u⟩ r⟩]) ∧ e1.p.target = g := by
    refine ⟨(worldAfter P setup txs).set gc.verifier (.verifier s'),
      ⟨⟨tx.sender, g, funds, msg⟩, .gateway ⟨tx.sender, askVerifier P (worldAfter P setup txs) gc.verifier,
      .verifyMessages ms⟩ { out := [.verify gc.verifier u] }⟩, ?_, rfl⟩
    have hd1 : deliver P tx.block (worldAfter P setup txs) ⟨tx.sender, g, funds, msg⟩ = .ok (worldAfter P setup txs,
        [⟨⟨tx.sender, g, funds, msg⟩, .gateway ⟨tx.sender, askVerifier P (worldAfter P setup txs) gc.verifier,
          .verifyMessages ms⟩ { out := [.verify gc.verifier u] }⟩],
        [⟨g, gc.verifier, [], .verifier (.verifyMessages u)⟩]) := by
      unfold deliver
      simp only [wg]
      unfold call
      simp only [wg, hmsg, cg, hgx]
      rw [KV.set_same wg]
      rfl
    have hd2 : deliver P tx.block (worldAfter P setup txs) ⟨g, gc.verifier, [], .verifier (.verifyMessages u)⟩ =
        .ok ((worldAfter P setup txs).set gc.verifier (.verifier s'),
          [⟨⟨g, gc.verifier, [], .verifier (.verifyMessages u)⟩,
            .verifier ⟨tx.block.height, g, some ws, .verifyMessages u⟩ r⟩], []) := by
      unfold deliver
      simp only [wV]
      unfold call
      simp only [wV, cV, hws, hvx]
      simp only [Entry.sent, Act.outs, hr, List.map_nil]
    unfold exec
    rw [if_neg (by simp [hsend]), htx, hk]
    simp only [List.map_cons, List.map_nil]
    rw [run, if_neg (by simp [wg]), hd1]
    simp only [List.append_nil]
    rw [run, if_neg (by simp [wV]), hd2]
    simp only [List.append_nil]
    cases k <;> rfl
  obtain ⟨w', e1, hexec, he1⟩ := hexec
  rw [cV] at hev hsnap
  refine ⟨⟨_, hexec⟩, confs, VV.metaOf vc (s.lastPollId + 1) tx.block.height snap, rfl, rfl, rfl, rfl, ?_, ?_⟩
  · intro a
    obtain ⟨_, _, _, _, hpar⟩ := Std.Snapshot.new_ok hsnap
    simp only [VV.metaOf, hpar, OMap.keys, List.mem_map]
    have hmem := Prover.mem_ofList (l := ws.map (fun w => (w.address, 1))) (by
      intro e he e' he' h
      obtain ⟨w, _, rfl⟩ := List.mem_map.mp he
      obtain ⟨w', _, rfl⟩ := List.mem_map.mp he'
      simp only at h
      rw [h])
    constructor
    · rintro ⟨x, hx, rfl⟩
      obtain ⟨w, hw, rfl⟩ := List.mem_map.mp ((hmem x).mp hx)
      exact ⟨w, hw, rfl⟩
    · rintro ⟨w, hw, rfl⟩
      exact ⟨(w.address, 1), (hmem _).mpr (List.mem_map_of_mem (f := fun w => (Registry.Worker.address w, 1)) hw), rfl⟩
  · intro m hm hneed
    have hmp : m ∈ VV.pending P.H s u := by
      unfold VV.pending
      refine List.mem_filter.mpr ⟨huin m hm hneed, ?_⟩
      rcases hneed with h | h <;> rw [h] <;> rfl
    obtain ⟨cf, hcf, hcm⟩ := mapE_mem hconfs hmp
    refine ⟨cf, hcf, log P setup txs ++ [e1], ⟨⟨g, gc.verifier, [], .verifier (.verifyMessages u)⟩,
      .verifier ⟨tx.block.height, g, some ws, .verifyMessages u⟩ r⟩, [],
      ⟨tx.block.height, g, some ws, .verifyMessages u⟩, r, u, ?_, rfl, rfl, rfl, huin m hm hneed,
      fun m' h' => hinj m hm m' (husub m' h'), ?_, rfl, hev, hcm⟩
    · rw [(log_snoc hexec).2]; simp
    · have : verifierCalls gc.verifier (log P setup txs ++ [e1]) = verifierCalls gc.verifier (log P setup txs) := by
        have hne : g ≠ gc.verifier := by
          intro h; rw [← h, hg] at hV; simp at hV
        unfold verifierCalls actsAt
        rw [List.filter_append]
        simp [he1, hne]
      rw [this, hst]
      exact hneed

end Amp.Chain
