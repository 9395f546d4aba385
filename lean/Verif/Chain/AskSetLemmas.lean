import Verif.Chain.AskProps

/-!
# Asking to confirm a worker set opens a poll
-/

namespace Amp.VV

open Amp.Std (counterIncr Snapshot Operators)

/-- a poll about a worker set is opened for bonded workers -/
theorem verifyWorkerSet_opens (H : Hashes) (s : State) (c : Call) (mid : Str) (o : Operators) (ws : List Registry.Worker)
    (hv : s.config.Valid) {tx : Str} {n : Nat} (hid : parseMessageId mid = some (tx, n))
    (hst : isWorkerSetVerified H s o = .ok false) (hw : c.workers = some ws) (hne : ws ≠ []) (hsz : ws.length ≤ u256Max)
    (hbond : ∀ w ∈ ws, ∃ n, w.bonding = .bonded n) (hroom : s.lastPollId < u64Max)
    (hh : c.height + s.config.blockExpiry ≤ u64Max) :
    ∃ s' r snap, verifyWorkerSet H s c mid o = .ok (s', r) ∧ r.msgs = [] ∧
      Snapshot.new s.config.threshold (ws.map (fun w => (w.address, 1))) = .ok snap ∧
      r.event = some (.workerSetPollStarted tx n o (metaOf s.config (s.lastPollId + 1) c.height snap)) := by
  obtain ⟨ps, hps⟩ : ∃ ps, mapE participantOf ws = .ok ps := by
    apply mapE_ok_of_forall
    intro w hw
    obtain ⟨n, hn⟩ := hbond w hw
    unfold participantOf Registry.Worker.toParticipant
    rw [hn]
    exact ⟨_, rfl⟩
  have hps' := participants_eq hps
  obtain ⟨snap, hsnap⟩ := Std.C02_snapshot_total (ps := ws.map (fun w => (w.address, 1))) hv
    (by simpa using hne) (by
      intro e he
      obtain ⟨w, _, rfl⟩ := List.mem_map.mp he
      exact Nat.one_pos) (by rw [Prover.totalWeight_ones]; exact hsz)
  refine ⟨{ s with
        lastPollId := s.lastPollId + 1
        polls := s.polls.set (s.lastPollId + 1)
          ⟨.workerSet, Std.Poll.new (s.lastPollId + 1) snap (c.height + s.config.blockExpiry) 1⟩
        pollWorkerSets := s.pollWorkerSets.set (H.ops o) ⟨o, s.lastPollId + 1, 0⟩ }, { event := some (.workerSetPollStarted tx n o (metaOf s.config (s.lastPollId + 1) c.height snap)) }, snap, ?_, rfl, hsnap, rfl⟩
  unfold verifyWorkerSet
  simp only [hst, takeSnapshot, hw, hps]
  rw [hps']
  simp only [hsnap, createPoll, counterIncr]
  rw [if_pos (by omega)]
  simp only
  rw [if_neg (by omega)]
  simp only [hid]

end Amp.VV

namespace Amp.Chain

open Amp.Std (Operators)

/-- a request to confirm a worker set, in a transaction of its own, opens a poll -/
theorem set_asked (P : Params) (setup : Setup) (txs : List Tx) (V : Addr) (vc : VV.Config) (hV : setup V = some (.verifier vc))
    (hv : vc.Valid) (hroom : (log P setup txs).length < u64Max) (mid : Str) (o : Operators) (tx : Str) (n : Nat)
    (hid : VV.parseMessageId mid = some (tx, n)) (hask : askSet P (worldAfter P setup txs) V o = .ok false)
    (ws : List Registry.Worker)
    (hws : askWorkers (worldAfter P setup txs) vc.serviceRegistry vc.serviceName vc.sourceChain = some ws)
    (hne : ws ≠ []) (hsz : ws.length ≤ u256Max) (t : Tx) (funds : List Registry.Coin)
    (htx : t.msgs = [(V, funds, .verifier (.verifyWorkerSet mid o))]) (hs : setup t.sender = none) (hgas : 1 ≤ t.gas)
    (hh : t.block.height + vc.blockExpiry ≤ u64Max) :
    ∃ x r pm, exec P (worldAfter P setup txs) t = .ok (x, [⟨⟨t.sender, V, funds, .verifier (.verifyWorkerSet mid o)⟩,
        .verifier ⟨t.block.height, t.sender, some ws, .verifyWorkerSet mid o⟩ r⟩]) ∧
      r.event = some (.workerSetPollStarted tx n o pm) ∧ pm.sourceChain = vc.sourceChain ∧ pm.sourceGateway = vc.sourceGateway ∧
      pm.confirmationHeight = vc.confirmationHeight ∧ pm.expiresAt = t.block.height + vc.blockExpiry ∧
      (∀ a, a ∈ pm.participants ↔ ∃ w ∈ ws, w.address = a) := by
  have hi := inv P setup txs
  have wV := hi.verifier_state hV
  have cV := (VV.inv_reachable P.H hv (verifierCalls V (log P setup txs))).config
  have hsend : worldAfter P setup txs t.sender = none := by rw [hi.world]; simp [worldOf, hs]
  obtain ⟨-, hbond⟩ := askWorkers_distinct hi hws
  have hcount : (VV.stateAfter P.H vc (verifierCalls V (log P setup txs))).lastPollId < u64Max :=
    Nat.lt_of_le_of_lt (Nat.le_trans (VV.lastPollId_le _ _ _) (verifierCalls_length _ _)) hroom
  have hst : VV.isWorkerSetVerified P.H (VV.stateAfter P.H vc (verifierCalls V (log P setup txs))) o = .ok false := by
    unfold askSet at hask
    rw [wV] at hask
    simp only at hask
    split at hask
    · rename_i b hb
      simp only [Except.ok.injEq] at hask
      rw [hb, hask]
    · cases hask
  generalize VV.stateAfter P.H vc (verifierCalls V (log P setup txs)) = s at wV cV hcount hst
  obtain ⟨s', r, snap, hx, hr, hsnap, hev⟩ := VV.verifyWorkerSet_opens P.H s
    ⟨t.block.height, t.sender, some ws, .verifyWorkerSet mid o⟩ mid o ws (by rw [cV]; exact hv) hid hst rfl hne hsz hbond hcount
    (by rw [cV]; exact hh)
  have hvx : VV.exec P.H s ⟨t.block.height, t.sender, some ws, .verifyWorkerSet mid o⟩ = .ok (s', r) := by
    simp only [VV.exec]; exact hx
  rw [cV] at hev hsnap
  obtain ⟨k, hk⟩ : ∃ k, t.gas = k + 1 := ⟨t.gas - 1, by omega⟩
  refine ⟨(worldAfter P setup txs).set V (.verifier s'), r, _, ?_, hev, rfl, rfl, rfl, rfl, ?_⟩
  · have hd : deliver P t.block (worldAfter P setup txs) ⟨t.sender, V, funds, .verifier (.verifyWorkerSet mid o)⟩ =
        .ok ((worldAfter P setup txs).set V (.verifier s'),
          [⟨⟨t.sender, V, funds, .verifier (.verifyWorkerSet mid o)⟩,
            .verifier ⟨t.block.height, t.sender, some ws, .verifyWorkerSet mid o⟩ r⟩], []) := by
      unfold deliver
      simp only [wV]
      unfold call
      simp only [wV, cV, hws, hvx]
      simp only [Entry.sent, Act.outs, hr, List.map_nil]
    unfold exec
    rw [if_neg (by simp [hsend]), htx, hk]
    simp only [List.map_cons, List.map_nil]
    rw [run, if_neg (by simp [wV]), hd]
    simp only [List.append_nil]
    cases k <;> rfl
  · intro a
    obtain ⟨_, _, _, _, hpar⟩ := Std.Snapshot.new_ok hsnap
    simp only [VV.metaOf, hpar, OMap.keys, List.mem_map]
    have hmem := Prover.mem_ofList (l := ws.map (fun w => (w.address, 1))) (by
      intro e he e' he' h
      obtain ⟨w, _, rfl⟩ := List.mem_map.mp he
      obtain ⟨w', _, rfl⟩ := List.mem_map.mp he'
      simp only at h
      rw [h])
    constructor
    · rintro ⟨x, hx, rfl⟩
      obtain ⟨w, hw, rfl⟩ := List.mem_map.mp ((hmem x).mp hx)
      exact ⟨w, hw, rfl⟩
    · rintro ⟨w, hw, rfl⟩
      exact ⟨(w.address, 1), (hmem _).mpr (List.mem_map_of_mem (f := fun w => (Registry.Worker.address w, 1)) hw), rfl⟩

end Amp.Chain
