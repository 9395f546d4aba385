import Verif.Prover.Encodable

/-!
# When a proof can be asked for: helper lemmas
-/

namespace Amp.Prover

open Amp.Encoding
open Amp.Multisig (Signature PublicKey Signer WorkerSet Crypto)
open Amp.Router (CCId Message ChainName)
open Amp.Registry (Worker)

variable {X : Ext}

/-- a worker set can be made of bonded workers who registered keys -/
theorem makeWorkerSet_total {cfg : Config} {env : Env} {n d : Nat} {workers : List Worker}
    (hth : Std.MajorityThreshold.ofPair n d = .ok cfg.signingThreshold) (ha : env.activeWorkers = .ok workers)
    (hne : workers ≠ []) (hl : workers.length ≤ u256Max) (hb : ∀ w ∈ workers, ∃ n, w.bonding = .bonded n)
    (hk : ∀ w ∈ workers, ∃ k, env.publicKey w.address = .ok k) : ∃ ws, makeWorkerSet cfg env = .ok ws := by
  obtain ⟨ps, hps⟩ : ∃ ps, mapE participantOf workers = .ok ps := by
    apply mapE_ok_of_forall
    intro w hw
    obtain ⟨n, hn⟩ := hb w hw
    unfold participantOf Worker.toParticipant
    rw [hn]
    exact ⟨_, rfl⟩
  obtain ⟨rfl, _⟩ := participants_eq hps
  obtain ⟨sn, hsn⟩ := Std.C02_snapshot_total (ps := workers.map (fun w => (w.address, 1))) hth
    (by simpa using hne) (by
      intro e he
      obtain ⟨w, _, rfl⟩ := List.mem_map.mp he
      exact Nat.one_pos) (by rw [totalWeight_ones]; exact hl)
  obtain ⟨keys, hkeys⟩ : ∃ r, mapE (fun w : Worker => env.publicKey w.address) workers = .ok r :=
    mapE_ok_of_forall hk
  unfold makeWorkerSet
  simp only [ha, hps, hsn, hkeys]
  exact ⟨_, rfl⟩

/-- stored batches have a digest -/
theorem stored_digest (X : Ext) (cfg : Config) (cs : List Call) (bid : Bytes) (b : Batch)
    (h : (stateAfter X cfg cs).batches bid = some b) :
    b.encoder = cfg.encoder ∧ b.id = bid ∧ ∃ g, b.digest X = .ok g := by
  revert bid b
  have key := runCalls_inv (exec X) (P := fun s : State => s.config = cfg ∧ ∀ bid b, s.batches bid = some b →
    b.encoder = cfg.encoder ∧ b.id = bid ∧ ∃ g, b.digest X = .ok g) ?_ (init cfg) ⟨rfl, by simp [init]⟩ cs
  · exact key.2
  rintro s c s' r ⟨hc, hs⟩ hx
  refine ⟨by rw [config_const hx, hc], ?_⟩
  cases exec_effect hx with
  | first new hm hc hn hs' hr => rw [hs']; exact hs
  | confirmed ws ops hm hp ho hv hs' hr => rw [hs']; exact hs
  | reused ids b cur digest sid hm hb hg hc hd ha hs' hr => rw [hs']; exact hs
  | built ids msgs ws b cur digest sid hm hw hb hp hcur hd ha hs' hr =>
    rw [hs']
    intro bid b' h
    simp only at h
    rw [KV.set_apply] at h
    split at h
    · rename_i hid
      simp only [Option.some.injEq] at h
      subst h
      exact ⟨by rw [(isBatch_build hb).1.encoder, hc], hid.symm, digest, hd⟩
    · exact hs bid b' h

/-- what `construct_proof` needs in order to succeed -/
theorem constructProof_total {s : State} {env : Env} {ids : List CCId} {msgs : List Message} {s1 : State} {b : Batch}
    {cur : WorkerSet} {digest : Bytes} (hg : getMessages s env ids = .ok msgs)
    (hb : (s.batches (batchId X ids none) = some b ∧ s1 = s) ∨
      (s.batches (batchId X ids none) = none ∧ newBatch X s env msgs = .ok (s1, b)))
    (hc : s.current = some cur) (hd : b.digest X = .ok digest) :
    constructProof X s env ids = .ok ({ s1 with replyBatch := some b.id },
      .startSigning (workerSetId X cur) digest s.config.chainName) := by
  have hc1 : s1.current = some cur := by
    rcases hb with ⟨_, rfl⟩ | ⟨_, hnb⟩
    · exact hc
    · obtain ⟨ws, _, _, _, rfl⟩ := newBatch_ok.mp hnb
      exact hc
  unfold constructProof
  rw [hg]
  rcases hb with ⟨hb, rfl⟩ | ⟨hb, hnb⟩
  · simp only [hb, hc, hd]
  · simp only [hb, hnb, hc1, hd]

/-- the multisig contract starts the session -/
theorem start_total {C : Crypto} {idOf : WorkerSet → Str} {m : Multisig.State} {self : Addr} {height : Nat} {wid : Str}
    {digest : Bytes} {chain : ChainName} {ws : WorkerSet} (ha : m.authorized self = some ()) (hl : digest.length = 32)
    (hw : m.workerSets wid = some ws) (hc : m.counter < u64Max) :
    Multisig.exec C idOf m ⟨self, height, .startSigningSession wid digest chain true⟩ =
      .ok ({ m with counter := m.counter + 1
                    sessions := m.sessions.set (m.counter + 1) ⟨m.counter + 1, wid, digest, .pending⟩ },
        { data := some (m.counter + 1)
          events := [.signingStarted (m.counter + 1) wid ws.pubKeys digest chain] }) := by
  have hm : Multisig.msgToSign digest = .ok digest := by
    unfold Multisig.msgToSign
    rw [if_neg (by omega)]
  simp only [Multisig.exec, Multisig.startSigningSession, ha, hm, hw]
  rw [if_neg (by simp), if_neg (by omega)]

/-- a request that the prover accepts and the multisig contract allows succeeds -/
theorem request_total {C : Crypto} {self : Addr} {S : Sys} {env : Env} {msg : Msg} {s1 : State} {b : Batch}
    {cur ws : WorkerSet} {digest : Bytes}
    (hh : handle X S.prover env msg = .ok ({ s1 with replyBatch := some b.id },
      .startSigning (workerSetId X cur) digest S.prover.config.chainName))
    (ha : S.multisig.authorized self = some ()) (hl : digest.length = 32)
    (hw : S.multisig.workerSets (workerSetId X cur) = some ws) (hc : S.multisig.counter < u64Max) :
    ∃ m', Multisig.exec C (workerSetId X) S.multisig ⟨self, env.height,
        (Out.startSigning (workerSetId X cur) digest S.prover.config.chainName).toMultisig⟩ =
        .ok (m', { data := some (S.multisig.counter + 1)
                   events := [.signingStarted (S.multisig.counter + 1) (workerSetId X cur) ws.pubKeys digest
                     S.prover.config.chainName] }) ∧
      exec X S.prover ⟨msg, env, some (some (S.multisig.counter + 1))⟩ =
        .ok ({ s1 with replyBatch := some b.id,
                       sessionBatch := s1.sessionBatch.set (S.multisig.counter + 1) b.id },
          ⟨.startSigning (workerSetId X cur) digest S.prover.config.chainName,
            some (S.multisig.counter + 1, b.id)⟩) ∧
      m'.sessions = S.multisig.sessions.set (S.multisig.counter + 1)
        ⟨S.multisig.counter + 1, workerSetId X cur, digest, .pending⟩ ∧
      m'.workerSets = S.multisig.workerSets ∧ m'.signatures = S.multisig.signatures := by
  refine ⟨_, start_total ha hl hw hc, ?_, rfl, rfl, rfl⟩
  unfold exec
  simp only [hh, reply]

/-- a completed session can be fetched as a proof -/
theorem completed_total {C : Crypto} {self : Addr} {cfg : Config} {mcfg : Multisig.Config} {ops : List Op}
    (hd : SetsDistinct X C self cfg mcfg ops) {sid : Nat} {bid : Bytes} {b : Batch}
    (hl : (sysAfter X C self cfg mcfg ops).prover.sessionBatch sid = some bid)
    (hb : (sysAfter X C self cfg mcfg ops).prover.batches bid = some b) {o : Option WorkerSet}
    {msgs : List Message} (hib : IsBatch X cfg o msgs b) (hc : ChainIdFits cfg.encoder cfg.destinationChainId)
    {se : Multisig.Session} {cur : WorkerSet} {height : Nat}
    (hse : (sysAfter X C self cfg mcfg ops).multisig.sessions sid = some se) (hst : se.state = .completed height)
    (hw : (sysAfter X C self cfg mcfg ops).multisig.workerSets se.workerSetId = some cur)
    (hcur : SetEncodable X cfg.encoder cur) (hsized : KeysSized cur)
    (htot : (cur.signers.map (fun e => e.2.weight)).sum ≤ u256Max)
    (hs : 1000 * (1 + b.data.commands.length + cur.signers.length) + dataSize b.data < 2 ^ 31) :
    ∃ d, sysProof X (sysAfter X C self cfg mcfg ops) sid = .ok ⟨b.messageIds, b.data, .completed d⟩ := by
  obtain ⟨hms, _, _⟩ := sys_multisig (X := X) (C := C) (self := self) (cfg := cfg) (mcfg := mcfg) ops
  have hcfg : (sysAfter X C self cfg mcfg ops).prover.config = cfg := by
    have := runCalls_inv (sysExec X C self) (P := fun S : Sys =>
      (∃ mcs, S.multisig = Multisig.stateAfter C (workerSetId X) mcfg mcs) ∧
      (∃ pcs, S.prover = stateAfter X cfg pcs))
      (fun S op S' r hi hx => sys_reach hx hi.1 hi.2) (sysInit cfg mcfg) ⟨⟨[], rfl⟩, ⟨[], rfl⟩⟩ ops
    obtain ⟨_, pcs, hp⟩ := this
    show (runCalls (sysExec X C self) (sysInit cfg mcfg) ops).prover.config = cfg
    rw [hp]
    exact config_stateAfter X cfg pcs
  obtain ⟨hbase, hi⟩ := Multisig.invariants C (workerSetId X) mcfg
    (multisigCalls self (sysLog X C self cfg mcfg ops))
  have hi := hi hd
  rw [← hms] at hbase hi
  have hso := (hbase.sets _ _ hw).2.2
  have hid := (hbase.sess sid se hse).1
  generalize hl0 : cur.signers.map (fun e => (e.2,
    ((sysAfter X C self cfg mcfg ops).multisig.signatures sid).get? e.1)) = l
  have hm : Multisig.getMultisig (sysAfter X C self cfg mcfg ops).multisig sid = some ⟨se.state, cur.threshold, l⟩ := by
    unfold Multisig.getMultisig
    simp only [hse, hw, hid, hl0]
  have hwt : weightOf (signed l) ≤ u256Max := by
    refine Nat.le_trans ?_ htot
    rw [weightOf_signed, ← hl0, List.map_map]
    clear hl0 hm
    induction cur.signers with
    | nil => simp
    | cons e t ih =>
      simp only [List.map_cons, List.sum_cons, Function.comp_apply]
      have : (match ((sysAfter X C self cfg mcfg ops).multisig.signatures sid).get? e.1 with
        | none => 0
        | some _ => e.2.weight) ≤ e.2.weight := by split <;> omega
      exact Nat.add_le_add this ih
  obtain ⟨r, hr⟩ := C55_total l cur.threshold hwt
  obtain ⟨⟨l', hperm, hf⟩, -, -⟩ := C55_fewest _ _ _ hr
  have hfst : ∀ {a b : List (Signer × Option Signature)}, List.Forall₂ KeptOrDropped a b →
      b.map Prod.fst = a.map Prod.fst := by
    intro a b h
    induction h with
    | nil => rfl
    | cons h _ ih => rw [List.map_cons, List.map_cons, ih, h.1]
  have hmembers : (r.map Prod.fst).Perm (cur.signers.map Prod.snd) := by
    rw [hfst hf]
    have : l.map Prod.fst = cur.signers.map Prod.snd := by rw [← hl0]; simp [Function.comp_def]
    rw [← this]
    exact hperm.map _
  have hvalid : ∀ sg sig, (sg, some sig) ∈ r → Multisig.Valid C se.msg sg.pubKey sig := by
    intro sg sig hmem
    have hmem' : (sg, some sig) ∈ l' := by
      clear hperm hmembers hr
      induction hf with
      | nil => simp at hmem
      | cons hk _ ih =>
        rcases List.mem_cons.mp hmem with h | h
        · subst h
          obtain ⟨k1, k2⟩ := hk
          rcases k2 with k2 | k2
          · rw [List.mem_cons]
            left
            exact Prod.ext k1 k2
          · simp at k2
        · exact List.mem_cons_of_mem _ (ih h)
    have hmem2 := hperm.subset hmem'
    rw [← hl0] at hmem2
    simp only [List.mem_map, Prod.mk.injEq, Prod.exists] at hmem2
    obtain ⟨a, sg', h7, rfl, h8⟩ := hmem2
    obtain ⟨sg2, h9, h10⟩ := hi.sig sid a sig se cur h8 hse hw
    rw [OMap.get?_of_mem hso h7] at h9
    simp only [Option.some.injEq] at h9
    subst h9
    exact h10
  have hlen : r.length = cur.signers.length := by
    have := hmembers.length_eq
    simpa using this
  obtain ⟨x, hx1, hx2⟩ := data_total hib hc (by omega)
  obtain ⟨d, hdd⟩ := payload_total X C cfg.encoder b.data hx1 cur hcur hsized se.msg r (by
    intro e he
    have := hmembers.subset (List.mem_map_of_mem he)
    obtain ⟨y, hy, hye⟩ := List.mem_map.mp this
    exact ⟨y.1, by rw [← hye]; exact hy⟩) hlen hvalid (by omega)
  refine ⟨d, ?_⟩
  unfold sysProof getProof
  rw [← executeData_eq X hib.encoder] at hdd
  simp only [hl, hb, hcfg, hib.encoder, hm, hst, hr, hdd]
  simp

end Amp.Prover
