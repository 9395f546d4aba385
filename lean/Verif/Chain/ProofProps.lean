import Verif.Chain.ProofLemmas

/-!
# C82: delivered messages can be proved

Whoever asks for a proof of messages that the gateway of the destination chain holds gets a signing session, and once
a quorum has signed, the proof can be fetched.
-/

namespace Amp.Chain

open Amp.Router (ChainName CCId Message)
open Amp.Multisig (WorkerSet)
open Amp.Prover (Sys SysResp sysAfter sysLog sysExec sysInit IsBatch dataDigest SetOf SameSet membershipChanges
  Addressable Nameable ChainIdFits textSize dataSize batchId newSigners)

/-! ### Specification -/

/-- the batch that the prover at `Q` has under an id -/
def storedBatch (w : World) (Q : Addr) (bid : Encoding.Bytes) : Option Prover.Batch :=
  match w Q with
  | some (.prover s _ _) => s.batches bid
  | _ => none

/-- the batch that the prover at `Q` shows for a signing session -/
def shownBatch (w : World) (Q : Addr) (sid : Nat) : Option Prover.Batch :=
  match w Q with
  | some (.prover s _ _) => (s.sessionBatch sid).bind s.batches
  | _ => none

/-- the worker set that the prover at `Q` wants to rotate to -/
def pendingSet (w : World) (Q : Addr) : Option WorkerSet :=
  match w Q with
  | some (.prover s _ _) => s.next
  | _ => none

/-- governance allowed `Q` to start signing sessions at `M` -/
def MayAsk (w : World) (M Q : Addr) : Prop :=
  match w M with
  | some (.multisig s) => s.authorized Q = some ()
  | _ => False

/-- the worker set that is registered at `M` under an id -/
def registeredSet (w : World) (M : Addr) (wid : Str) : Option WorkerSet :=
  match w M with
  | some (.multisig s) => Multisig.getWorkerSet s wid
  | _ => none

/-- the transaction consists of a request for a proof of the messages with the ids -/
structure Asks (setup : Setup) (tx : Tx) (Q : Addr) (ids : List CCId) : Prop where
  msgs : ∃ funds, tx.msgs = [(Q, funds, .prover (.constructProof ids))]
  sender : setup tx.sender = none
  gas : 1 ≤ tx.gas

/-- the gateway of the prover's chain holds messages with the ids, `cur` is the worker set, and the prover may ask
for signatures -/
structure Ready (w : World) (Q : Addr) (pc : Prover.Config) (ids : List CCId) (msgs : List Message)
    (cur : WorkerSet) : Prop where
  messages : askGateway w pc.gateway ids = .ok msgs
  destination : ∀ m ∈ msgs, m.destinationChain = pc.chainName
  current : currentSet w Q = some cur
  allowed : MayAsk w pc.multisig Q

/-- a batch can be made: there are active workers and all of them have keys; all destination addresses are addresses
of the chain; if so many workers changed that a rotation is due, no other rotation is in progress and the keys can be
named on the chain -/
structure Buildable (P : Params) (w : World) (Q : Addr) (pc : Prover.Config) (sv : Str) (kt : Multisig.KeyType)
    (height : Nat) (msgs : List Message) (cur : WorkerSet) (workers : List Registry.Worker) : Prop where
  active : askWorkers w pc.serviceRegistry sv pc.chainName = some workers
  nonEmpty : workers ≠ []
  keys : ∀ x ∈ workers, ∃ k, askKey w pc.multisig kt x.address = .ok k
  addresses : ∀ m ∈ msgs, Addressable P.X pc.encoder m
  rotation : ∀ new, SetOf pc.signingThreshold (askKey w pc.multisig kt) height workers new →
    pc.diffThreshold < membershipChanges new cur →
      (∀ n, pendingSet w Q = some n → SameSet n new) ∧ ∀ e ∈ new.signers, Nameable P.X pc.encoder e.2.pubKey
  chainId : ChainIdFits pc.encoder pc.destinationChainId
  size : 1000 * (1 + msgs.length + workers.length) + textSize msgs < 2 ^ 31

/-- the transaction starts a signing session: the multisig contract announces it, for the digest of the batch and the
members of the worker set with their keys, and `GetProof` shows the batch, without signatures yet; the worker set is
registered -/
def Starts (P : Params) (w : World) (tx : Tx) (Q : Addr) (pc : Prover.Config) (cur : WorkerSet)
    (b : Prover.Batch) : Prop :=
  ∃ w' es sid digest, exec P w tx = .ok (w', es) ∧
    (∃ e ∈ es, ∃ c r, e.p.target = pc.multisig ∧ e.act = .multisig c r ∧
      .signingStarted sid (Prover.workerSetId P.X cur) cur.pubKeys digest pc.chainName ∈ r.events) ∧
    dataDigest P.X pc.encoder b.data = .ok digest ∧
    askProof P w' Q sid = .ok ⟨b.messageIds, b.data, .pending⟩ ∧
    shownBatch w' Q sid = some b ∧
    registeredSet w' pc.multisig (Prover.workerSetId P.X cur) = some cur ∧
    askProof P w Q sid = .error .std

/-! ### Helper lemmas -/

/-- a request that the prover accepts starts a signing session -/
theorem starts_of_handle {P : Params} {setup : Setup} {txs : List Tx} {Q : Addr} {pc : Prover.Config} {sv : Str}
    {kt : Multisig.KeyType} (hQ : setup Q = some (.prover pc sv kt)) {mc : Multisig.Config}
    (hM : setup pc.multisig = some (.multisig mc)) (hd : SetsDistinctAt P (log P setup txs) pc.multisig)
    (hroom : (log P setup txs).length < u64Max) {tx : Tx} {m : Prover.Msg} {funds : List Registry.Coin}
    (htx : tx.msgs = [(Q, funds, .prover m)]) (hsnd : setup tx.sender = none) (hgas : 1 ≤ tx.gas)
    {cur : WorkerSet} (hc : currentSet (worldAfter P setup txs) Q = some cur)
    (hallow : MayAsk (worldAfter P setup txs) pc.multisig Q)
    {s s1 : Prover.State} {b : Prover.Batch}
    (hs : worldAfter P setup txs Q = some (.prover s sv kt)) (henc : b.encoder = pc.encoder)
    {digest : Encoding.Bytes}
    (hhs : Prover.handle P.X s (proverEnv P (worldAfter P setup txs) tx.block pc sv kt) m =
      .ok ({ s1 with replyBatch := some b.id }, .startSigning (Prover.workerSetId P.X cur) digest pc.chainName))
    (hbs : s1.batches b.id = some b ∧ s1.config = pc)
    (hdig : dataDigest P.X pc.encoder b.data = .ok digest) (hlen : digest.length = 32) :
    Starts P (worldAfter P setup txs) tx Q pc cur b ∧ ∃ w' es s', exec P (worldAfter P setup txs) tx = .ok (w', es) ∧
      w' Q = some (.prover s' sv kt) ∧ s'.next = s1.next := by
  have hi := inv P setup txs
  obtain ⟨ops, hp⟩ := pair P setup txs hQ hM
  have hmcs := (Prover.sys_multisig (X := P.X) (C := P.C) (self := Q) (cfg := pc) (mcfg := mc) ops).1
  have hse : s = (sysAfter P.X P.C Q pc mc ops).prover := by
    have := hp.prover
    rw [hs] at this
    simp only [Option.some.injEq, Store.prover.injEq] at this
    exact this.1
  have hcfg : s.config = pc := by
    obtain ⟨pcs, hpcs⟩ := sys_prover_reachable P.X P.C Q pc mc ops
    rw [hse, hpcs]; exact Prover.config_stateAfter P.X pc pcs
  have hcur : s.current = some cur := by
    have := hc
    unfold currentSet at this
    rw [hs] at this
    exact this
  have hwM := hp.multisig
  have hauth : (sysAfter P.X P.C Q pc mc ops).multisig.authorized Q = some () := by
    have := hallow
    unfold MayAsk at this
    rw [hwM] at this
    exact this
  have hreg := Prover.C58_current_registered P.X P.C Q pc mc ops (setsDistinct hi hp hM hd) cur (by rw [← hse]; exact hcur)
  have hctr : (sysAfter P.X P.C Q pc mc ops).multisig.counter < u64Max := by
    rw [hmcs, hp.received]
    have h1 := counter_le P.C (Prover.workerSetId P.X) mc (multisigCalls pc.multisig (log P setup txs))
    have h2 := multisigCalls_length pc.multisig (log P setup txs)
    omega
  have hh : Prover.handle P.X (sysAfter P.X P.C Q pc mc ops).prover
      (proverEnv P (worldAfter P setup txs) tx.block pc sv kt) m =
      .ok ({ s1 with replyBatch := some b.id }, .startSigning (Prover.workerSetId P.X cur) digest
        (sysAfter P.X P.C Q pc mc ops).prover.config.chainName) := by
    rw [← hse, hcfg]
    exact hhs
  obtain ⟨m', g1, g2, g3, g4, g5⟩ := Prover.request_total (X := P.X) (C := P.C) (self := Q) hh hauth hlen hreg hctr
  rw [← hse] at hh g1 g2
  have hsend : worldAfter P setup txs tx.sender = none := by
    rw [hi.world]; simp [worldOf, hsnd]
  have hx := exec_request (P := P) (w := worldAfter P setup txs) htx hsend hgas hs hcfg hwM hh g1 rfl g2
  have hne : Q ≠ pc.multisig := by
    intro hq
    rw [← hq, hs] at hwM
    simp at hwM
  refine ⟨?_, _, _, _, hx, (KV.set_ne _ _ hne).trans (KV.set_self ..), rfl⟩
  refine ⟨_, _, (sysAfter P.X P.C Q pc mc ops).multisig.counter + 1, digest, hx, ?_, hdig, ?_, ?_, ?_, ?_⟩
  · refine ⟨_, List.mem_cons_of_mem _ List.mem_cons_self, _, _, rfl, rfl, ?_⟩
    rw [hcfg]
    exact List.mem_singleton_self _
  · unfold askProof
    rw [KV.set_ne _ _ hne, KV.set_self]
    simp only [hbs.2]
    rw [KV.set_self]
    simp only
    have hgm : Multisig.getMultisig m' ((sysAfter P.X P.C Q pc mc ops).multisig.counter + 1) =
        some ⟨.pending, cur.threshold, cur.signers.map (fun e => (e.2,
          (m'.signatures ((sysAfter P.X P.C Q pc mc ops).multisig.counter + 1)).get? e.1))⟩ := by
      unfold Multisig.getMultisig
      have : (sysAfter P.X P.C Q pc mc ops).multisig.workerSets (Prover.workerSetId P.X cur) = some cur := hreg
      simp only [g3, KV.set_self, g4, this]
    unfold Prover.getProof
    simp only [KV.set_self, hbs.1, hgm, hbs.2, henc]
    simp
  · unfold shownBatch
    rw [KV.set_ne _ _ hne, KV.set_self]
    simp only [KV.set_self, Option.bind_some]
    exact hbs.1
  · unfold registeredSet
    rw [KV.set_self]
    simp only
    unfold Multisig.getWorkerSet at hreg ⊢
    rw [g4]
    exact hreg
  · rw [askProof_eq hp]
    cases hl : (sysAfter P.X P.C Q pc mc ops).prover.sessionBatch
        ((sysAfter P.X P.C Q pc mc ops).multisig.counter + 1) with
    | none => unfold Prover.sysProof Prover.getProof; simp only [hl]
    | some bid =>
      obtain ⟨_, _, _, _, _, se, _, h1, _⟩ := Prover.C58_session P.X P.C Q pc mc ops _ bid hl
      have := Prover.session_none (X := P.X) (C := P.C) hmcs
      rw [this] at h1
      simp at h1

theorem starts_of {P : Params} {setup : Setup} {txs : List Tx} {Q : Addr} {pc : Prover.Config} {sv : Str}
    {kt : Multisig.KeyType} (hQ : setup Q = some (.prover pc sv kt)) {mc : Multisig.Config}
    (hM : setup pc.multisig = some (.multisig mc)) (hd : SetsDistinctAt P (log P setup txs) pc.multisig)
    (hroom : (log P setup txs).length < u64Max) {tx : Tx} {ids : List CCId} (hask : Asks setup tx Q ids)
    {msgs : List Message} {cur : WorkerSet} (hr : Ready (worldAfter P setup txs) Q pc ids msgs cur)
    {s s1 : Prover.State} {b : Prover.Batch}
    (hs : worldAfter P setup txs Q = some (.prover s sv kt)) (henc : b.encoder = pc.encoder)
    (hb : (s.batches (batchId P.X ids none) = some b ∧ s1 = s ∧ b.id = batchId P.X ids none) ∨
      (s.batches (batchId P.X ids none) = none ∧
        Prover.newBatch P.X s (proverEnv P (worldAfter P setup txs) tx.block pc sv kt) msgs = .ok (s1, b)))
    {digest : Encoding.Bytes} (hdig : dataDigest P.X pc.encoder b.data = .ok digest) (hlen : digest.length = 32) :
    Starts P (worldAfter P setup txs) tx Q pc cur b := by
  obtain ⟨ops, hp⟩ := pair P setup txs hQ hM
  have hse : s = (sysAfter P.X P.C Q pc mc ops).prover := by
    have := hp.prover
    rw [hs] at this
    simp only [Option.some.injEq, Store.prover.injEq] at this
    exact this.1
  have hcfg : s.config = pc := by
    obtain ⟨pcs, hpcs⟩ := sys_prover_reachable P.X P.C Q pc mc ops
    rw [hse, hpcs]; exact Prover.config_stateAfter P.X pc pcs
  have hcur : s.current = some cur := by
    have := hr.current
    unfold currentSet at this
    rw [hs] at this
    exact this
  have hbd : b.digest P.X = .ok digest := by rw [Prover.digest_eq henc]; exact hdig
  have hg : Prover.getMessages s (proverEnv P (worldAfter P setup txs) tx.block pc sv kt) ids = .ok msgs :=
    Prover.getMessages_ok.mpr ⟨hr.messages, askGateway_length hr.messages, by rw [hcfg]; exact hr.destination⟩
  have hcp := Prover.constructProof_total (X := P.X) hg (b := b) (s1 := s1)
    (by rcases hb with h | h
        · exact Or.inl ⟨h.1, h.2.1⟩
        · exact Or.inr h) hcur hbd
  have hbs : s1.batches b.id = some b ∧ s1.config = pc := by
    rcases hb with ⟨h1, rfl, h2⟩ | ⟨_, h⟩
    · exact ⟨by rw [h2]; exact h1, hcfg⟩
    · obtain ⟨_, _, _, _, rfl⟩ := Prover.newBatch_ok.mp h
      exact ⟨by simp, hcfg⟩
  obtain ⟨funds, htx⟩ := hask.msgs
  exact (starts_of_handle hQ hM hd hroom htx hask.sender hask.gas hr.current hr.allowed hs henc
    (hcfg ▸ hcp) hbs hdig hlen).1

/-! ### C82 -/

/-- C82, request: whoever asks for a proof of messages that the gateway holds gets a signing session over a batch that
approves exactly these messages, with a transfer to the new worker set first if enough workers changed. -/
theorem C82_requested (P : Params) (setup : Setup) (txs : List Tx) (Q : Addr) (pc : Prover.Config) (sv : Str)
    (kt : Multisig.KeyType) (hQ : setup Q = some (.prover pc sv kt)) (n d : Nat)
    (hth : Std.MajorityThreshold.ofPair n d = .ok pc.signingThreshold) (mc : Multisig.Config)
    (hM : setup pc.multisig = some (.multisig mc)) (hd : SetsDistinctAt P (log P setup txs) pc.multisig)
    (hroom : (log P setup txs).length < u64Max) (tx : Tx) (ids : List CCId) (hask : Asks setup tx Q ids)
    (msgs : List Message) (cur : WorkerSet) (hr : Ready (worldAfter P setup txs) Q pc ids msgs cur)
    (hnew : storedBatch (worldAfter P setup txs) Q (batchId P.X ids none) = none)
    (workers : List Registry.Worker)
    (hb : Buildable P (worldAfter P setup txs) Q pc sv kt tx.block.height msgs cur workers) :
    ∃ new b, SetOf pc.signingThreshold (askKey (worldAfter P setup txs) pc.multisig kt) tx.block.height workers new ∧
      IsBatch P.X pc (if pc.diffThreshold < membershipChanges new cur then some new else none) msgs b ∧
      Starts P (worldAfter P setup txs) tx Q pc cur b := by
  have hi := inv P setup txs
  obtain ⟨ops, hp⟩ := pair P setup txs hQ hM
  have hs := hp.prover
  generalize hse : (sysAfter P.X P.C Q pc mc ops).prover = s at hs
  obtain ⟨pcs, hpcs⟩ := sys_prover_reachable P.X P.C Q pc mc ops
  rw [hse] at hpcs
  have hcfg : s.config = pc := by rw [hpcs]; exact Prover.config_stateAfter P.X pc pcs
  have hcur : s.current = some cur := by
    have := hr.current
    unfold currentSet at this
    rw [hs] at this
    exact this
  obtain ⟨hnd, hbond⟩ := askWorkers_distinct hi hb.active
  have hw : (proverEnv P (worldAfter P setup txs) tx.block pc sv kt).activeWorkers = .ok workers := by
    unfold proverEnv
    simp only [hb.active]
  have hsz := hb.size
  obtain ⟨new, hmk⟩ := Prover.makeWorkerSet_total (cfg := pc)
    (env := proverEnv P (worldAfter P setup txs) tx.block pc sv kt) hth hw hb.nonEmpty
    (by unfold u256Max; omega) hbond hb.keys
  have hfit : Fits new := fits_made hi hth hmk
  obtain ⟨workers', hw', hset⟩ := Prover.setOf_makeWorkerSet hmk
  rw [hw] at hw'
  simp only [Except.ok.injEq] at hw'
  subst hw'
  have hlen : new.signers.length = workers.length := by
    have h1 := Prover.weight_eq_length hset hnd hb.keys
    unfold Prover.setWeight at h1
    rw [sum_ones hfit.ones] at h1
    exact h1
  have hnext := Prover.next_exact P.X pc pcs (proverEnv P (worldAfter P setup txs) tx.block pc sv kt) cur new
    (by rw [← hpcs]; exact hcur) hmk
  rw [← hpcs] at hnext
  have hmax : workers.length ≤ Prover.maxWeight pc.encoder := by
    unfold Prover.maxWeight
    cases pc.encoder <;> simp only [u256Max, u128Max] <;> omega
  have hmax1 : 1 ≤ Prover.maxWeight pc.encoder := by
    unfold Prover.maxWeight
    cases pc.encoder <;> simp [u256Max, u128Max]
  have hns : newSigners (if pc.diffThreshold < membershipChanges new cur then some new else none) ≤ workers.length := by
    split
    · exact Nat.le_of_eq hlen
    · exact Nat.zero_le _
  obtain ⟨b0, digest, hib0, hdig, hl32⟩ := (Prover.C85_batch P.X pc
    (if pc.diffThreshold < membershipChanges new cur then some new else none) msgs
    (by
      intro ws hws
      split at hws
      · simp only [Option.some.injEq] at hws
        subst hws
        refine ⟨hfit.keys, fun e he => by rw [hfit.ones e he]; exact hmax1, ?_⟩
        have := hfit.threshold
        omega
      · simp at hws) hb.chainId (by omega)).mpr ⟨hb.addresses, by
        intro ws hws
        split at hws
        · rename_i hdiff
          simp only [Option.some.injEq] at hws
          subst hws
          exact (hb.rotation new hset hdiff).2
        · simp at hws⟩
  have hbuild := Prover.build_of_spec hib0
  generalize hb1 : (⟨batchId P.X (msgs.map (·.ccId))
    (if pc.diffThreshold < membershipChanges new cur then some new else none), b0.messageIds, b0.data,
    pc.encoder⟩ : Prover.Batch) = b at hbuild
  have hdata : b.data = b0.data := by rw [← hb1]
  have hib := (Prover.isBatch_build hbuild).1
  have hnb : ∃ s1, Prover.newBatch P.X s (proverEnv P (worldAfter P setup txs) tx.block pc sv kt) msgs =
      .ok (s1, b) := by
    refine ⟨_, Prover.newBatch_ok.mpr ⟨_, hnext, by rw [hcfg]; exact hbuild, ?_, rfl⟩⟩
    intro x n0 hx hn0
    split at hx
    · rename_i hdiff
      simp only [Option.some.injEq] at hx
      subst hx
      exact (hb.rotation new hset hdiff).1 n0 (by unfold pendingSet; rw [hs]; exact hn0)
    · simp at hx
  obtain ⟨s1, hnb⟩ := hnb
  have hnone : s.batches (batchId P.X ids none) = none := by
    unfold storedBatch at hnew
    rw [hs] at hnew
    exact hnew
  exact ⟨new, b, hset, hib, starts_of hQ hM hd hroom hask hr hs hib.encoder (Or.inr ⟨hnone, hnb⟩)
    (by rw [hdata]; exact hdig) hl32⟩

/-- C82, request again: for messages of which the prover already made a batch without a transfer, only the gateway, the
worker set and the permission are needed: the batch is signed again, by the workers of the current set. -/
theorem C82_again (P : Params) (setup : Setup) (txs : List Tx) (Q : Addr) (pc : Prover.Config) (sv : Str)
    (kt : Multisig.KeyType) (hQ : setup Q = some (.prover pc sv kt)) (mc : Multisig.Config)
    (hM : setup pc.multisig = some (.multisig mc)) (hd : SetsDistinctAt P (log P setup txs) pc.multisig)
    (hroom : (log P setup txs).length < u64Max) (tx : Tx) (ids : List CCId) (hask : Asks setup tx Q ids)
    (msgs : List Message) (cur : WorkerSet) (hr : Ready (worldAfter P setup txs) Q pc ids msgs cur)
    (b : Prover.Batch) (hold : storedBatch (worldAfter P setup txs) Q (batchId P.X ids none) = some b) :
    Starts P (worldAfter P setup txs) tx Q pc cur b := by
  obtain ⟨ops, hp⟩ := pair P setup txs hQ hM
  have hs := hp.prover
  obtain ⟨pcs, hpcs⟩ := sys_prover_reachable P.X P.C Q pc mc ops
  rw [hpcs] at hs
  have hb : (Prover.stateAfter P.X pc pcs).batches (batchId P.X ids none) = some b := by
    unfold storedBatch at hold
    rw [hs] at hold
    exact hold
  obtain ⟨henc, hid, g, hg⟩ := Prover.stored_digest P.X pc pcs _ b hb
  rw [Prover.digest_eq henc] at hg
  have hl : g.length = 32 := by
    unfold dataDigest at hg
    split at hg
    · exact (Encoding.Abi.digest_ok P.X b.data hg).1
    · exact (Encoding.Bcs.digest_ok P.X b.data hg).1
  exact starts_of hQ hM hd hroom hask hr hs henc (Or.inl ⟨hb, rfl, hid⟩) hg hl

end Amp.Chain
