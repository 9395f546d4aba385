import Verif.Chain.RecordLemmas
import Verif.Chain.ProverLemmas
import Verif.Chain.Example

/-!
# C83: the rewards contract never blocks signing or voting

Submitted signatures and ended polls are recorded at the rewards contract in the same transaction.
-/

namespace Amp.Chain

/-- `R` is the rewards contract of this repository and, up to height `h`, blocks came in order, governance set only
positive epoch durations (the message type excludes zero), and with `n` more messages fewer than 2⁶⁴ were ever
delivered. -/
structure RecordsAt (P : Params) (setup : Setup) (txs : List Tx) (R : Addr) (h n : Nat) : Prop where
  contract : ∃ cfg p h0, setup R = some (.rewards cfg p h0) ∧ 0 < p.duration ∧ h0 ≤ h ∧
    ∀ tx ∈ txs, h0 ≤ tx.block.height
  order : InOrder txs
  before : ∀ tx ∈ txs, tx.block.height ≤ h
  durations : ∀ e ∈ log P setup txs, e.p.target = R → ∀ q, e.p.msg = .rewards (.updateParams q) → 0 < q.duration
  height : h ≤ u64Max
  count : (log P setup txs).length + n ≤ u64Max

theorem multisig_config (C : Multisig.Crypto) (idOf : Multisig.WorkerSet → Str) (cfg : Multisig.Config)
    (cs : List Multisig.Call) : (runCalls (Multisig.exec C idOf) (Multisig.init cfg) cs).config = cfg := by
  refine runCalls_inv (Multisig.exec C idOf) (P := fun s => s.config = cfg) ?_ _ rfl cs
  intro s c s' r hs hx
  rcases Multisig.exec_ok hx with ⟨_, _, _, _, _, h⟩ | ⟨_, _, _, h⟩ | ⟨_, _, _, _, rfl, _⟩ | ⟨_, _, _, _, _, rfl, _⟩ |
    ⟨_, _, _, rfl, _⟩ | ⟨_, _, _, rfl, _⟩
  · unfold Multisig.startSigningSession at h
    repeat' split at h
    all_goals first
      | (simp at h; done)
      | (simp only [Except.ok.injEq, Prod.mk.injEq] at h; rw [← h.1]; exact hs)
  · obtain ⟨_, _, _, _, _, _, _, _, _, _, _, _, _, rfl, _⟩ := Multisig.submit_ok.mp h
    exact hs
  all_goals exact hs

/-- a message whose call sends nothing but records is accepted by the chain if the contract accepts it -/
theorem exec_records {P : Params} {setup : Setup} {txs : List Tx} {k R : Addr} {tx : Tx} {n : Nat}
    (hR : RecordsAt P setup txs R tx.block.height n) {funds : List Registry.Coin} {msg : Msg}
    (htx : tx.msgs = [(k, funds, msg)]) (hs : setup tx.sender = none) {st : Store} {act : Act}
    (hk : setup k ≠ none) (hkR : k ≠ R) (hnp : ∀ c s t, setup k ≠ some (.prover c s t))
    (hc : call P tx.block (worldAfter P setup txs) ⟨tx.sender, k, funds, msg⟩ none = .ok (st, act))
    {xs : List (Str × Addr)}
    (ho : act.outs = xs.map (fun x => (R, .rewards (.recordParticipation x.1 x.2)))) (hn : xs.length < n)
    (hgas : xs.length < tx.gas) :
    ∃ w' es, exec P (worldAfter P setup txs) tx = .ok (w', ⟨⟨tx.sender, k, funds, msg⟩, act⟩ :: es) ∧
      es.map (·.p) = xs.map (fun x => ⟨k, R, [], .rewards (.recordParticipation x.1 x.2)⟩) ∧
      w' k = some st ∧ ∀ a, a ≠ k → a ≠ R → w' a = worldAfter P setup txs a := by
  obtain ⟨cfg, p, h0, hsR, hp, hh0, h0le⟩ := hR.contract
  obtain ⟨s, hw, hi, hroom⟩ := room_log P setup txs hsR hR.order h0le hp hR.durations hh0 hR.before
  have hinv := inv P setup txs
  have hsend : worldAfter P setup txs tx.sender = none := by rw [hinv.world]; simp [worldOf, hs]
  have hwk : ∃ x, worldAfter P setup txs k = some x ∧ ∀ s t u, x ≠ .prover s t u := by
    rw [hinv.world]
    unfold worldOf
    cases hsk : setup k with
    | none => exact absurd hsk hk
    | some kd =>
      refine ⟨_, rfl, ?_⟩
      intro s t u hx
      cases kd with
      | prover c sv kt => exact hnp c sv kt hsk
      | _ => simp [replay] at hx
  obtain ⟨x, hwx, hxp⟩ := hwk
  have hdel : deliver P tx.block (worldAfter P setup txs) ⟨tx.sender, k, funds, msg⟩ =
      .ok ((worldAfter P setup txs).set k st, [⟨⟨tx.sender, k, funds, msg⟩, act⟩],
        Entry.sent ⟨⟨tx.sender, k, funds, msg⟩, act⟩) := by
    unfold deliver
    simp only [hwx]
    split
    · rename_i s t u heq
      simp only [Option.some.injEq] at heq
      exact absurd heq (hxp s t u)
    · rw [hc]
  obtain ⟨g, hg⟩ : ∃ g, tx.gas = g + 1 := ⟨tx.gas - 1, by omega⟩
  have hsent : Entry.sent ⟨⟨tx.sender, k, funds, msg⟩, act⟩ =
      xs.map (fun x => ⟨k, R, [], .rewards (.recordParticipation x.1 x.2)⟩) := by
    unfold Entry.sent
    simp only
    rw [ho, List.map_map]
    rfl
  have hc' := hR.count
  obtain ⟨w', es, h1, h2, h3⟩ := run_records (P := P) tx.block tx.accepts k R hR.height xs
    ((worldAfter P setup txs).set k st) g _ s (by rw [KV.set_ne _ _ (Ne.symm hkR)]; exact hw) hi hroom (by omega)
    (by omega)
  refine ⟨w', es, ?_, h2, ?_, ?_⟩
  · unfold exec
    rw [if_neg (by simp [hsend]), htx, hg]
    simp only [List.map_cons, List.map_nil]
    rw [run, if_neg (by simp [hwx]), hdel]
    simp only [hsent, List.append_nil, h1]
    rfl
  · rw [h3 k hkR, KV.set_self]
  · intro a ha haR
    rw [h3 a haR, KV.set_ne _ _ ha]

/-- C83, signatures: a transaction that submits a signature is accepted exactly if the multisig contract accepts
the signature (for when it does, see C47): the record at the rewards contract does not fail.  It is made in the same
transaction, for the session and the sender of the signature. -/
theorem C83_signature (P : Params) (setup : Setup) (txs : List Tx) (M : Addr) (mc : Multisig.Config)
    (hM : setup M = some (.multisig mc)) (tx : Tx) (hR : RecordsAt P setup txs mc.rewards tx.block.height 2)
    (funds : List Registry.Coin) (id : Nat) (b : Multisig.Bin)
    (htx : tx.msgs = [(M, funds, .multisig (.submitSignature id b))]) (hs : setup tx.sender = none)
    (hgas : 2 ≤ tx.gas) :
    ((∃ x, exec P (worldAfter P setup txs) tx = .ok x) ↔
      ∃ y, Multisig.exec P.C (Prover.workerSetId P.X)
        (Multisig.stateAfter P.C (Prover.workerSetId P.X) mc (multisigCalls M (log P setup txs)))
        ⟨tx.sender, tx.block.height, .submitSignature id b⟩ = .ok y) ∧
    ∀ w' es, exec P (worldAfter P setup txs) tx = .ok (w', es) →
      es.map (·.p) = [⟨tx.sender, M, funds, .multisig (.submitSignature id b)⟩,
        ⟨M, mc.rewards, [], .rewards (.recordParticipation (showNat id) tx.sender)⟩] := by
  have hinv := inv P setup txs
  have hwM : worldAfter P setup txs M = some (.multisig
      (Multisig.stateAfter P.C (Prover.workerSetId P.X) mc (multisigCalls M (log P setup txs)))) := by
    rw [hinv.world]
    simp [worldOf, hM, replay, multisigCalls, Multisig.stateAfter]
  have hcfg := multisig_config P.C (Prover.workerSetId P.X) mc (multisigCalls M (log P setup txs))
  have hne : M ≠ mc.rewards := by
    intro he
    obtain ⟨cfg, p, h0, hsR, _⟩ := hR.contract
    rw [← he, hM] at hsR
    simp at hsR
  have hsend : worldAfter P setup txs tx.sender = none := by rw [hinv.world]; simp [worldOf, hs]
  have key : ∀ s' r, Multisig.exec P.C (Prover.workerSetId P.X)
        (Multisig.stateAfter P.C (Prover.workerSetId P.X) mc (multisigCalls M (log P setup txs)))
        ⟨tx.sender, tx.block.height, .submitSignature id b⟩ = .ok (s', r) →
      ∃ w' e es, exec P (worldAfter P setup txs) tx = .ok (w', e :: es) ∧
        e.p = ⟨tx.sender, M, funds, .multisig (.submitSignature id b)⟩ ∧
        es.map (·.p) = [⟨M, mc.rewards, [], .rewards (.recordParticipation (showNat id) tx.sender)⟩] := by
    intro s' r hx
    have hrec : r.records = [⟨mc.rewards, showNat id, tx.sender⟩] := by
      have hx' := hx
      simp only [Multisig.exec] at hx'
      obtain ⟨_, _, _, _, _, _, _, _, _, _, _, _, _, _, rfl⟩ := Multisig.submit_ok.mp hx'
      unfold Multisig.stateAfter
      rw [hcfg]
      rfl
    obtain ⟨w', es, h1, h2, _, _⟩ := exec_records (k := M) hR htx hs (by rw [hM]; simp) hne
      (by rw [hM]; simp) (st := .multisig s')
      (act := .multisig ⟨tx.sender, tx.block.height, .submitSignature id b⟩ r)
      (by unfold call; simp only [hwM, hx]) (xs := [(showNat id, tx.sender)])
      (by simp [Act.outs, hrec]) (by simp) (by simp only [List.length_cons, List.length_nil]; omega)
    exact ⟨w', _, es, h1, rfl, h2⟩
  have back : ∀ x, exec P (worldAfter P setup txs) tx = .ok x →
      ∃ y, Multisig.exec P.C (Prover.workerSetId P.X)
        (Multisig.stateAfter P.C (Prover.workerSetId P.X) mc (multisigCalls M (log P setup txs)))
        ⟨tx.sender, tx.block.height, .submitSignature id b⟩ = .ok y := by
    intro x hx
    unfold exec at hx
    rw [if_neg (by simp [hsend]), htx] at hx
    obtain ⟨g, hg⟩ : ∃ g, tx.gas = g + 1 := ⟨tx.gas - 1, by omega⟩
    simp only [List.map_cons, List.map_nil, hg] at hx
    rw [run, if_neg (by simp [hwM])] at hx
    cases hd : deliver P tx.block (worldAfter P setup txs)
        ⟨tx.sender, M, funds, .multisig (.submitSignature id b)⟩ with
    | error e => rw [hd] at hx; simp at hx
    | ok z =>
      unfold deliver at hd
      simp only [hwM] at hd
      split at hd
      · simp at hd
      · rename_i st a hc
        obtain ⟨m, s', r, hm, _, _, hx'⟩ := call_multisig_ok (w := worldAfter P setup txs) hwM hc
        simp only [Msg.multisig.injEq] at hm
        subst hm
        exact ⟨_, hx'⟩
  refine ⟨⟨fun ⟨x, hx⟩ => back x hx, ?_⟩, ?_⟩
  · rintro ⟨⟨s', r⟩, hx⟩
    obtain ⟨w', e, es, h1, _⟩ := key s' r hx
    exact ⟨_, h1⟩
  · intro w' es hx
    obtain ⟨⟨s', r⟩, hy⟩ := back _ hx
    obtain ⟨w1, e, es1, h1, h2, h3⟩ := key s' r hy
    rw [hx] at h1
    simp only [Except.ok.injEq, Prod.mk.injEq] at h1
    rw [h1.2, List.map_cons, h2, h3]

/-- C83, polls: whoever ends a poll that is in progress and has expired, with gas for the records, succeeds, and
nothing else ends a poll: the records at the rewards contract do not fail.  They are made in the same transaction,
one for each worker who voted with the consensus. -/
theorem C83_end_poll (P : Params) (setup : Setup) (txs : List Tx) (V : Addr) (vc : VV.Config) (hv : vc.Valid)
    (hV : setup V = some (.verifier vc)) (id : Nat) (sp : VV.StoredPoll)
    (hsp : (VV.stateAfter P.H vc (verifierCalls V (log P setup txs))).polls id = some sp) (tx : Tx)
    (hR : RecordsAt P setup txs vc.rewards tx.block.height (sp.poll.state.consensusParticipants.length + 1))
    (funds : List Registry.Coin) (htx : tx.msgs = [(V, funds, .verifier (.endPoll id))])
    (hs : setup tx.sender = none) (hgas : sp.poll.state.consensusParticipants.length < tx.gas) :
    ((∃ x, exec P (worldAfter P setup txs) tx = .ok x) ↔
      sp.poll.status = .inProgress ∧ sp.poll.expiresAt ≤ tx.block.height) ∧
    ∀ w' es, exec P (worldAfter P setup txs) tx = .ok (w', es) →
      es.map (·.p) = ⟨tx.sender, V, funds, .verifier (.endPoll id)⟩ ::
        sp.poll.state.consensusParticipants.map
          (fun a => ⟨V, vc.rewards, [], .rewards (.recordParticipation (showNat id) a)⟩) := by
  have hinv := inv P setup txs
  have hwV := hinv.verifier_state hV
  have hcfg := (VV.inv_reachable P.H hv (verifierCalls V (log P setup txs))).config
  have hne : V ≠ vc.rewards := by
    intro he
    obtain ⟨cfg, p, h0, hsR, _⟩ := hR.contract
    rw [← he, hV] at hsR
    simp at hsR
  have hsend : worldAfter P setup txs tx.sender = none := by rw [hinv.world]; simp [worldOf, hs]
  have key : sp.poll.status = .inProgress ∧ sp.poll.expiresAt ≤ tx.block.height →
      ∃ w' e es, exec P (worldAfter P setup txs) tx = .ok (w', e :: es) ∧
        e.p = ⟨tx.sender, V, funds, .verifier (.endPoll id)⟩ ∧
        es.map (·.p) = sp.poll.state.consensusParticipants.map
          (fun a => ⟨V, vc.rewards, [], .rewards (.recordParticipation (showNat id) a)⟩) := by
    rintro ⟨h1, h2⟩
    have hf : sp.poll.finish tx.block.height = .ok { sp.poll with status := .finished } := by
      unfold Std.Poll.finish
      rw [if_neg (by rw [h1]; simp), if_neg (by omega)]
    have hx : ∀ ws, VV.exec P.H (VV.stateAfter P.H vc (verifierCalls V (log P setup txs)))
        ⟨tx.block.height, tx.sender, ws, .endPoll id⟩ = .ok
        ({ VV.stateAfter P.H vc (verifierCalls V (log P setup txs)) with
            polls := (VV.stateAfter P.H vc (verifierCalls V (log P setup txs))).polls.set id
              { sp with poll := { sp.poll with status := .finished } } },
          { data := .pollResult sp.poll.state
            event := some (.pollEnded sp.poll.state.pollId sp.poll.state.results)
            msgs := sp.poll.state.consensusParticipants.map (fun a => ⟨vc.rewards, showNat id, a⟩) }) := by
      intro ws
      simp only [VV.exec, VV.endPoll, hsp, hf, hcfg]
      rfl
    obtain ⟨w', es, g1, g2, _, _⟩ := exec_records (k := V) hR htx hs (by rw [hV]; simp) hne
      (by rw [hV]; simp)
      (by unfold call; simp only [hwV, hx]; rfl)
      (xs := sp.poll.state.consensusParticipants.map (fun a => (showNat id, a)))
      (by simp [Act.outs, Function.comp_def]) (by simp) (by simpa using hgas)
    rw [List.map_map] at g2
    exact ⟨w', _, es, g1, rfl, g2⟩
  have back : ∀ x, exec P (worldAfter P setup txs) tx = .ok x →
      sp.poll.status = .inProgress ∧ sp.poll.expiresAt ≤ tx.block.height := by
    intro x hx
    unfold exec at hx
    rw [if_neg (by simp [hsend]), htx] at hx
    obtain ⟨g, hg⟩ : ∃ g, tx.gas = g + 1 := ⟨tx.gas - 1, by omega⟩
    simp only [List.map_cons, List.map_nil, hg] at hx
    rw [run, if_neg (by simp [hwV])] at hx
    cases hd : deliver P tx.block (worldAfter P setup txs)
        ⟨tx.sender, V, funds, .verifier (.endPoll id)⟩ with
    | error e => rw [hd] at hx; simp at hx
    | ok z =>
      unfold deliver at hd
      simp only [hwV] at hd
      split at hd
      · simp at hd
      · rename_i st a hc
        unfold call at hc
        simp only [hwV] at hc
        split at hc
        · simp at hc
        · rename_i s' r hx'
          simp only [VV.exec] at hx'
          obtain ⟨sp', p, h1, h2, _⟩ := VV.endPoll_ok hx'
          rw [hsp] at h1
          simp only [Option.some.injEq] at h1
          subst h1
          obtain ⟨h3, h4, _⟩ := Std.Poll.finish_ok h2
          exact ⟨h3, h4⟩
  refine ⟨⟨fun ⟨x, hx⟩ => back x hx, ?_⟩, ?_⟩
  · intro h
    obtain ⟨w', e, es, h1, _⟩ := key h
    exact ⟨_, h1⟩
  · intro w' es hx
    obtain ⟨w1, e, es1, h1, h2, h3⟩ := key (back _ hx)
    rw [hx] at h1
    simp only [Except.ok.injEq, Prod.mk.injEq] at h1
    rw [h1.2, List.map_cons, h2, h3]

/-! ### A concrete history -/

/-- the verifier of `exSetup` for `eth` -/
def exVerifier : VV.Config := ⟨10, svc, "0xgw".toList, ⟨2, 3⟩, 10, 1, eth, 11⟩

/-- the history of `exTxs` until the first signature is due -/
def exAsked : List Tx := exTxs0 ++ exTxs1 ++ exTxs2.take 1

/-- the history of `exTxs` until the poll can be ended -/
def exSigned : List Tx := exTxs0 ++ exTxs1 ++ exTxs2.take 3

theorem exRecordsAt (txs : List Tx) (h n : Nat) (h1 : 1 ≤ h) (ho : InOrder txs)
    (hb : txs.all (fun t => decide (1 ≤ t.block.height ∧ t.block.height ≤ h)) = true) (hh : h ≤ u64Max)
    (hd : (log exP exSetup txs).all (fun e => match e.p.msg with
      | .rewards (.updateParams q) => decide (0 < q.duration)
      | _ => true) = true) (hc : (log exP exSetup txs).length + n ≤ u64Max) :
    RecordsAt exP exSetup txs 11 h n := by
  have hb' := fun t ht => of_decide_eq_true (List.all_eq_true.mp hb t ht)
  refine ⟨⟨_, _, _, rfl, by decide, h1, fun t ht => (hb' t ht).1⟩, ho, fun t ht => (hb' t ht).2, ?_, hh, hc⟩
  intro e he _ q hq
  have := List.all_eq_true.mp hd e he
  rw [hq] at this
  exact of_decide_eq_true this

/-- the hypotheses of `C83_signature` hold for the first signature of the history, and it is accepted -/
example : RecordsAt exP exSetup exAsked 11 10 2 ∧
    (∃ x, exec exP (worldAfter exP exSetup exAsked)
      (exTx 5 10 18 (.multisig (.submitSignature 1 (List.replicate 64 5)))) = .ok x) ∧
    (¬ ∃ x, exec exP (worldAfter exP exSetup exAsked)
      (exTx 5 10 18 (.multisig (.submitSignature 2 (List.replicate 64 5)))) = .ok x) := by
  refine ⟨exRecordsAt _ _ _ (by decide) (by unfold InOrder; decide +kernel) (by decide +kernel) (by decide)
    (by decide +kernel) (by decide +kernel), ?_, ?_⟩
  · rw [(C83_signature exP exSetup exAsked 18 ⟨1, 11, 5⟩ rfl _ (exRecordsAt _ _ _ (by decide)
      (by unfold InOrder; decide +kernel) (by decide +kernel) (by decide) (by decide +kernel) (by decide +kernel))
      [] 1 _ rfl rfl (by decide)).1]
    have : (answer (Multisig.exec exP.C (Prover.workerSetId exP.X) (Multisig.stateAfter exP.C
      (Prover.workerSetId exP.X) ⟨1, 11, 5⟩ (multisigCalls 18 (log exP exSetup exAsked)))
        ⟨5, 10, .submitSignature 1 (List.replicate 64 5)⟩)).isSome = true := by decide +kernel
    cases hx : Multisig.exec exP.C (Prover.workerSetId exP.X) (Multisig.stateAfter exP.C
      (Prover.workerSetId exP.X) ⟨1, 11, 5⟩ (multisigCalls 18 (log exP exSetup exAsked)))
        ⟨5, 10, .submitSignature 1 (List.replicate 64 5)⟩ with
    | error e => rw [hx] at this; simp [answer] at this
    | ok y => exact ⟨y, hx⟩
  · rintro ⟨x, hx⟩
    have : (answer (exec exP (worldAfter exP exSetup exAsked)
      (exTx 5 10 18 (.multisig (.submitSignature 2 (List.replicate 64 5)))))).isNone = true := by decide +kernel
    rw [hx] at this
    simp [answer] at this

/-- the hypotheses of `C83_end_poll` hold for the poll of the history: it can be ended at its expiry, not before, and
two workers are recorded -/
example : RecordsAt exP exSetup exSigned 11 14 3 ∧
    ((VV.stateAfter exP.H exVerifier (verifierCalls 12 (log exP exSetup exSigned))).polls 1).any (fun sp =>
      decide (sp.poll.status = .inProgress ∧ sp.poll.expiresAt = 14 ∧
        sp.poll.state.consensusParticipants = [5, 6])) = true ∧
    ((answer (exec exP (worldAfter exP exSetup exSigned) (exTx 9 14 12 (.verifier (.endPoll 1))))).any fun x =>
      decide (x.2.map (·.p) = [⟨9, 12, [], .verifier (.endPoll 1)⟩,
        ⟨12, 11, [], .rewards (.recordParticipation "1".toList 5)⟩,
        ⟨12, 11, [], .rewards (.recordParticipation "1".toList 6)⟩])) = true ∧
    (answer (exec exP (worldAfter exP exSetup exSigned) (exTx 9 13 12 (.verifier (.endPoll 1))))).isNone = true := by
  refine ⟨exRecordsAt _ _ _ (by decide) (by unfold InOrder; decide +kernel) (by decide +kernel) (by decide)
    (by decide +kernel) (by decide +kernel), by decide +kernel, by decide +kernel, by decide +kernel⟩

end Amp.Chain
