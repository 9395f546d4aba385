import Verif.Chain.ProverLemmas
import Verif.Chain.TrustProps

/-!
# C76: what provers have signed was verified
-/

namespace Amp.Chain

open Amp.Router (ChainName CCId Message)
open Amp.Prover (Op Sys SysResp sysAfter sysLog sysExec sysInit QuorumSigned IsBatch dataDigest executeDataOf)

/-! ### Specification -/

/-- no two different worker sets that were registered at the multisig contract at `M` have the same id -/
def SetsDistinctAt (P : Params) (l : List Entry) (M : Addr) : Prop :=
  ∀ e ∈ l, ∀ e' ∈ l, e.p.target = M → e'.p.target = M → ∀ r r' ws ws',
    e.p.msg = .multisig (.registerWorkerSet r) → e'.p.msg = .multisig (.registerWorkerSet r') →
    r.decode = .ok ws → r'.decode = .ok ws' → Prover.workerSetId P.X ws = Prover.workerSetId P.X ws' → ws = ws'

/-- the worker set of the prover at `Q` -/
def currentSet (w : World) (Q : Addr) : Option Multisig.WorkerSet :=
  match w Q with
  | some (.prover s _ _) => Prover.getWorkerSet s
  | _ => none

variable {P : Params} {setup : Setup} {l l₁ l₂ : List Entry} {w w' : World} {R Q : Addr} {e : Entry}
  {rc : Router.Config} {nc : Nexus.Config} {pc : Prover.Config} {sv : Str} {kt : Multisig.KeyType}
  {mc : Multisig.Config}

/-! ### Helper lemmas -/

theorem Wired.mono (h : Wired setup l R rc nc) (hl : l = l₁ ++ l₂) : Wired setup l₁ R rc nc :=
  ⟨h.router, h.nexus, fun e he => h.gateways e (by rw [hl]; exact List.mem_append_left _ he)⟩

/-- what holds of a message at some moment holds later -/
theorem source_mono (hi : Inv P setup l w) (hw : Wired setup l R rc nc) (hl : l = l₁ ++ l₂) {m : Message}
    (h : InjectedByNexus l₁ rc.nexusGateway nc m ∨ VerifiedAtSource P setup l₁ (worldOf P setup l₁) R m) :
    InjectedByNexus l rc.nexusGateway nc m ∨ VerifiedAtSource P setup l w R m := by
  rcases h with ⟨e, he, rest⟩ | ⟨k₁, e, k₂, ms, g, gc, hk, h1, h2, h3, h4, h5, h6⟩
  · exact Or.inl ⟨e, by rw [hl]; exact List.mem_append_left _ he, rest⟩
  · right
    refine ⟨k₁, e, k₂ ++ l₂, ms, g, gc, by rw [hl, hk]; simp, h1, h2, h3, h4, h5, ?_⟩
    have hik := (hi.prefix hl).prefix hk
    unfold registeredGateway at h3
    rw [hik.router_state hw.router] at h3
    simp only [Option.map_eq_some_iff] at h3
    obtain ⟨ep, hep, rfl⟩ := h3
    obtain ⟨er, her, htr, hmr⟩ := registered_entry hik hw.router hep
    obtain ⟨gc', vc, g1, g2, g3⟩ := hw.gateways er (by rw [hl, hk]; simp [her]) htr _ _ hmr
    rw [h4] at g1
    simp only [Option.some.injEq, Kind.gateway.injEq] at g1
    subst g1
    subst hl
    exact verified_later g3 hi g2 h6

theorem askGateway_mem {ids : List CCId} {G : Addr} {ms : List Message} (h : askGateway w G ids = .ok ms)
    {m : Message} (hm : m ∈ ms) : ∃ id ∈ ids, askGateway w G [id] = .ok [m] := by
  unfold askGateway at h ⊢
  split at h
  · rename_i s hs
    split at h
    · rename_i ms' hg
      simp only [Except.ok.injEq] at h
      subst h
      unfold Gateway.getMessages at hg
      clear hs
      induction ids generalizing ms' with
      | nil => simp only [mapE, Except.ok.injEq] at hg; subst hg; simp at hm
      | cons i t ih =>
        obtain ⟨x, r, h1, h2, rfl⟩ := mapE_cons_ok.mp hg
        rcases List.mem_cons.mp hm with rfl | hm
        · exact ⟨i, List.mem_cons_self .., by simp [Gateway.getMessages, mapE, h1]⟩
        · obtain ⟨id, hid, h⟩ := ih _ h2 hm
          exact ⟨id, List.mem_cons_of_mem _ hid, h⟩
    · simp at h
  · simp at h

/-- every batch that is or was stored was made by a request -/
theorem made_of_post (X : Encoding.Ext) (C : Multisig.Crypto) (Q : Addr) (pc : Prover.Config) (mc : Multisig.Config)
    (ops : List Op) :
    (∀ bid b, (sysAfter X C Q pc mc ops).prover.batches bid = some b →
      ∃ e ∈ sysLog X C Q pc mc ops, ∃ ws msgs, Prover.Made X pc e bid b ws msgs) ∧
    (∀ st ∈ sysLog X C Q pc mc ops, ∀ bid b, st.post.prover.batches bid = some b →
      ∃ e ∈ sysLog X C Q pc mc ops, ∃ ws msgs, Prover.Made X pc e bid b ws msgs) := by
  unfold sysAfter sysLog
  refine (steps_inv (sysExec X C Q) (P := fun log S =>
    ((∃ mcs, S.multisig = Multisig.stateAfter C (Prover.workerSetId X) mc mcs) ∧
      ∃ pcs, S.prover = Prover.stateAfter X pc pcs) ∧
    (∀ bid b, S.prover.batches bid = some b → ∃ e ∈ log, ∃ ws msgs, Prover.Made X pc e bid b ws msgs) ∧
    (∀ st ∈ log, ∀ bid b, st.post.prover.batches bid = some b →
      ∃ e ∈ log, ∃ ws msgs, Prover.Made X pc e bid b ws msgs))
    (sysInit pc mc) ⟨⟨⟨[], rfl⟩, ⟨[], rfl⟩⟩, by intro bid b h; simp [sysInit, Prover.init] at h, by simp⟩ ?_ ops).2
  rintro log S op S' r ⟨⟨hm, hp⟩, h1, h2⟩ hx
  have hsub : ∀ e ∈ log, e ∈ log ++ [⟨S, op, r, S'⟩] := fun e he => List.mem_append_left _ he
  have hnew : ∀ bid b, S'.prover.batches bid = some b →
      ∃ e ∈ log ++ [⟨S, op, r, S'⟩], ∃ ws msgs, Prover.Made X pc e bid b ws msgs := by
    intro bid b hb
    rcases Prover.batches_step hx hp with h | ⟨ws, msgs, b', h, hmd, _⟩
    · rw [h] at hb
      obtain ⟨e, he, rest⟩ := h1 bid b hb
      exact ⟨e, hsub e he, rest⟩
    · rw [h, KV.set_apply] at hb
      split at hb
      · rename_i hid
        simp only [Option.some.injEq] at hb
        subst hb
        subst hid
        exact ⟨_, List.mem_append_right _ (List.mem_singleton_self _), ws, msgs, hmd⟩
      · obtain ⟨e, he, rest⟩ := h1 bid b hb
        exact ⟨e, hsub e he, rest⟩
  refine ⟨Prover.sys_reach hx hm hp, hnew, ?_⟩
  intro st hst bid b hb
  rcases List.mem_append.mp hst with hst | hst
  · obtain ⟨e, he, rest⟩ := h2 st hst bid b hb
    exact ⟨e, hsub e he, rest⟩
  · rw [List.mem_singleton] at hst
    subst hst
    exact hnew bid b hb

/-- the messages of a batch made by a request were delivered to the gateway -/
theorem made_source (hi : Inv P setup l w) (hw : Wired setup l R rc nc) {ops : List Op}
    (hp : Pair P setup Q pc sv kt mc l w ops) {gc : Gateway.Config} (hG : setup pc.gateway = some (.gateway gc))
    (hr : gc.router = R) {st : Step Sys Op SysResp} (hst : st ∈ sysLog P.X P.C Q pc mc ops) {bid : Encoding.Bytes}
    {b : Prover.Batch} {ws : Option Multisig.WorkerSet} {msgs : List Message}
    (hm : Prover.Made P.X pc st bid b ws msgs) :
    ∀ m ∈ msgs, InjectedByNexus l rc.nexusGateway nc m ∨ VerifiedAtSource P setup l w R m := by
  intro m hmem
  have ha := hm.asked
  unfold Prover.asked at ha
  split at ha
  · rename_i ids env hc
    obtain ⟨k₁, e, k₂, bl, hl, _, _, rfl, _⟩ := hp.calls st hst _ _ hc
    obtain ⟨id, _, hask⟩ := askGateway_mem ha hmem
    exact source_mono hi hw hl (outgoing_source (hi.prefix hl) (hw.mono hl) hG hr hask).2
  · simp only [Except.ok.injEq] at ha
    rw [← ha] at hmem
    simp at hmem

theorem askProof_eq {ops : List Op} (hp : Pair P setup Q pc sv kt mc l w ops) (sid : Nat) :
    askProof P w Q sid = Prover.sysProof P.X (sysAfter P.X P.C Q pc mc ops) sid := by
  obtain ⟨pcs, hpcs⟩ := sys_prover_reachable P.X P.C Q pc mc ops
  have hcfg : (sysAfter P.X P.C Q pc mc ops).prover.config = pc := by
    rw [hpcs]; exact Prover.config_stateAfter P.X pc pcs
  unfold askProof
  rw [hp.prover]
  simp only [hcfg]
  rw [hp.multisig]
  rfl

theorem Inv.multisig_msg (hi : Inv P setup l w) {M : Addr} (hM : setup M = some (.multisig mc))
    {c : Multisig.Call} (hc : c ∈ multisigCalls M l) : ∃ e ∈ l, e.p.target = M ∧ e.p.msg = .multisig c.msg := by
  obtain ⟨a, ha, hac⟩ := List.mem_filterMap.mp hc
  obtain ⟨e, he, ht, rfl⟩ := mem_actsAt ha
  obtain ⟨k₁, k₂, hl⟩ := List.append_of_mem he
  obtain ⟨_, b, reply, s', hcall⟩ := hi.genuine k₁ e k₂ hl
  have hw : worldOf P setup k₁ e.p.target = some (replay P (.multisig mc) (actsAt e.p.target k₁)) := by
    rw [ht]; simp [worldOf, hM]
  obtain ⟨m, s1, r, h1, h2, _⟩ := call_multisig_ok (s := _) hw hcall
  rw [h2] at hac
  simp only [Act.multisigCall?, Option.some.injEq] at hac
  subst hac
  exact ⟨e, he, ht, h1⟩

theorem setsDistinct (hi : Inv P setup l w) {ops : List Op} (hp : Pair P setup Q pc sv kt mc l w ops)
    (hM : setup pc.multisig = some (.multisig mc)) (hd : SetsDistinctAt P l pc.multisig) :
    Prover.SetsDistinct P.X P.C Q pc mc ops := by
  intro x y hx hy hxy
  have key : ∀ z, Multisig.Registered (Multisig.trace P.C (Prover.workerSetId P.X) mc
      (Prover.multisigCalls Q (sysLog P.X P.C Q pc mc ops))) z →
      ∃ e ∈ l, e.p.target = pc.multisig ∧ ∃ r, e.p.msg = .multisig (.registerWorkerSet r) ∧ r.decode = .ok z := by
    rintro z ⟨st, hst, r, h1, h2⟩
    obtain ⟨⟨cs₁, cs₂, hcs, _⟩, _⟩ := steps_mem _ hst
    have hmem : st.call ∈ multisigCalls pc.multisig l := by
      rw [← hp.received, hcs]; simp
    obtain ⟨e, he, ht, hm⟩ := hi.multisig_msg hM hmem
    exact ⟨e, he, ht, r, by rw [hm, h1], h2⟩
  obtain ⟨e, he, ht, r, h1, h2⟩ := key x hx
  obtain ⟨e', he', ht', r', h1', h2'⟩ := key y hy
  exact hd e he e' he' ht ht' r r' x y h1 h1' h2 h2' hxy

/-! ### C76 -/

/-- C76: for every proof that `GetProof` returns as completed, a quorum of the worker set that was the prover's
when signatures were asked for signed the digest of a batch; the batch approves messages each of which was injected
by nexus or verified at its source, and nothing else (but possibly a transfer to a new worker set). -/
theorem C76_signed_verified (P : Params) (setup : Setup) (txs : List Tx) (R : Addr) (rc : Router.Config)
    (nc : Nexus.Config) (hw : Wired setup (log P setup txs) R rc nc) (Q : Addr) (pc : Prover.Config) (sv : Str)
    (kt : Multisig.KeyType) (hQ : setup Q = some (.prover pc sv kt)) (mc : Multisig.Config)
    (hM : setup pc.multisig = some (.multisig mc)) (gc : Gateway.Config)
    (hG : setup pc.gateway = some (.gateway gc)) (hr : gc.router = R)
    (hd : SetsDistinctAt P (log P setup txs) pc.multisig) (sid : Nat) (p : Prover.Proof) (d : Encoding.Bytes)
    (h : askProof P (worldAfter P setup txs) Q sid = .ok p) (hc : p.status = .completed d) :
    ∃ l₁ e l₂ cur digest signers b ws msgs,
      log P setup txs = l₁ ++ e :: l₂ ∧ e.p.target = Q ∧ currentSet (worldOf P setup l₁) Q = some cur ∧
      QuorumSigned P.C cur digest signers ∧ dataDigest P.X pc.encoder b.data = .ok digest ∧
      IsBatch P.X pc ws msgs b ∧
      executeDataOf P.X pc.encoder p.data cur.threshold signers = .ok d ∧
      ∀ m ∈ msgs, InjectedByNexus (log P setup txs) rc.nexusGateway nc m ∨
        VerifiedAtSource P setup (log P setup txs) (worldAfter P setup txs) R m := by
  have hi := inv P setup txs
  obtain ⟨ops, hp⟩ := pair P setup txs hQ hM
  rw [askProof_eq hp] at h
  obtain ⟨st, hst, bid, b, cur, digest, signers, hop, hqs, hexec⟩ :=
    Prover.C58_signed P.X P.C Q pc mc ops (setsDistinct hi hp hM hd) sid p d h hc
  obtain ⟨st', hst', ws, msgs, hmade⟩ := (made_of_post P.X P.C Q pc mc ops).2 st hst bid b hop.batch
  have hcall : ∃ m env, st.call = .prover m env := by
    obtain ⟨pr, hpr, _⟩ := hop.event
    rcases Prover.sys_ok (steps_mem _ hst).2 with ⟨c, mr, _, _, _, hno⟩ | ⟨m, env, _, _, hcl, _⟩
    · rw [hpr] at hno; simp at hno
    · exact ⟨m, env, hcl⟩
  obtain ⟨m, env, hcl⟩ := hcall
  obtain ⟨l₁, e, l₂, bl, hl, ht, _, _, hpre, _⟩ := hp.calls st hst m env hcl
  refine ⟨l₁, e, l₂, cur, digest, signers, b, ws, msgs, hl, ht, ?_, hqs, hop.digestOf,
    (Prover.isBatch_build hmade.build).1, hexec, made_source hi hw hp hG hr hst' hmade⟩
  unfold currentSet
  rw [hpre]
  exact hop.current

/-- C76, what is shown: whatever `GetProof` returns, completed or not, its content approves messages each of which
was injected by nexus or verified at its source. -/
theorem C76_shown_verified (P : Params) (setup : Setup) (txs : List Tx) (R : Addr) (rc : Router.Config)
    (nc : Nexus.Config) (hw : Wired setup (log P setup txs) R rc nc) (Q : Addr) (pc : Prover.Config) (sv : Str)
    (kt : Multisig.KeyType) (hQ : setup Q = some (.prover pc sv kt)) (mc : Multisig.Config)
    (hM : setup pc.multisig = some (.multisig mc)) (gc : Gateway.Config)
    (hG : setup pc.gateway = some (.gateway gc)) (hr : gc.router = R) (sid : Nat) (p : Prover.Proof)
    (h : askProof P (worldAfter P setup txs) Q sid = .ok p) :
    ∃ b ws msgs, p.data = b.data ∧ p.messageIds = b.messageIds ∧ IsBatch P.X pc ws msgs b ∧
      ∀ m ∈ msgs, InjectedByNexus (log P setup txs) rc.nexusGateway nc m ∨
        VerifiedAtSource P setup (log P setup txs) (worldAfter P setup txs) R m := by
  have hi := inv P setup txs
  obtain ⟨ops, hp⟩ := pair P setup txs hQ hM
  rw [askProof_eq hp] at h
  have hb : ∃ bid b, (sysAfter P.X P.C Q pc mc ops).prover.batches bid = some b ∧ p.data = b.data ∧
      p.messageIds = b.messageIds := by
    unfold Prover.sysProof Prover.getProof at h
    generalize sysAfter P.X P.C Q pc mc ops = S at h ⊢
    split at h
    · simp at h
    rename_i bid h1
    split at h
    · simp at h
    rename_i b h2
    refine ⟨bid, b, h2, ?_⟩
    split at h
    · simp at h
    split at h
    · simp at h
    split at h
    · simp only [Except.ok.injEq] at h; rw [← h]; exact ⟨rfl, rfl⟩
    · split at h
      · simp at h
      · split at h
        · simp at h
        · simp at h
        · simp only [Except.ok.injEq] at h; rw [← h]; exact ⟨rfl, rfl⟩
  obtain ⟨bid, b, h1, h2, h3⟩ := hb
  obtain ⟨st', hst', ws, msgs, hmade⟩ := (made_of_post P.X P.C Q pc mc ops).1 bid b h1
  exact ⟨b, ws, msgs, h2, h3, (Prover.isBatch_build hmade.build).1, made_source hi hw hp hG hr hst' hmade⟩

/-- C76 with C75: what a quorum signed and what is shown as a completed proof was injected by nexus or emitted on
the chain that its id names. -/
theorem C76_signed_emitted (P : Params) (setup : Setup) (txs : List Tx) (R : Addr) (rc : Router.Config)
    (nc : Nexus.Config) (hw : Wired setup (log P setup txs) R rc nc) (source : Addr → Source)
    (hwat : AllWatched P setup (log P setup txs) R source) (Q : Addr) (pc : Prover.Config) (sv : Str)
    (kt : Multisig.KeyType) (hQ : setup Q = some (.prover pc sv kt)) (mc : Multisig.Config)
    (hM : setup pc.multisig = some (.multisig mc)) (gc : Gateway.Config)
    (hG : setup pc.gateway = some (.gateway gc)) (hr : gc.router = R)
    (hd : SetsDistinctAt P (log P setup txs) pc.multisig) (sid : Nat) (p : Prover.Proof) (d : Encoding.Bytes)
    (h : askProof P (worldAfter P setup txs) Q sid = .ok p) (hc : p.status = .completed d) :
    ∃ l₁ e l₂ cur digest signers b ws msgs,
      log P setup txs = l₁ ++ e :: l₂ ∧ e.p.target = Q ∧ currentSet (worldOf P setup l₁) Q = some cur ∧
      QuorumSigned P.C cur digest signers ∧ dataDigest P.X pc.encoder b.data = .ok digest ∧
      IsBatch P.X pc ws msgs b ∧
      executeDataOf P.X pc.encoder p.data cur.threshold signers = .ok d ∧
      ∀ m ∈ msgs, InjectedByNexus (log P setup txs) rc.nexusGateway nc m ∨
        EmittedAtSource P setup (log P setup txs) R source m := by
  obtain ⟨l₁, e, l₂, cur, digest, signers, b, ws, msgs, h1, h2, h3, h4, h5, h6, h7, h8⟩ :=
    C76_signed_verified P setup txs R rc nc hw Q pc sv kt hQ mc hM gc hG hr hd sid p d h hc
  exact ⟨l₁, e, l₂, cur, digest, signers, b, ws, msgs, h1, h2, h3, h4, h5, h6, h7,
    fun m hm => (h8 m hm).imp_right (emitted_of_source (inv P setup txs) hw hwat)⟩

end Amp.Chain
