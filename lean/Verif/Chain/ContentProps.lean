import Verif.Chain.ProofProps
import Verif.Prover.Content

/-!
# C109: a completed proof carries what was signed

In the whole system.  The code violates this in a corner (`C58_counterexample`): batches with a transfer to a new
worker set are stored under an id that does not tell the order of the messages, and replace a batch with that id.
-/

namespace Amp.Chain

open Amp.Router (ChainName CCId Message)
open Amp.Multisig (WorkerSet)
open Amp.Prover (Sys SysResp sysAfter sysLog QuorumSigned IsBatch dataDigest executeDataOf SetOf membershipChanges
  batchId batchText PlainId TextCollision)

/-! ### Specification -/

/-- the block in which a call of a prover was executed -/
def proverHeight (e : Entry) : Option Nat :=
  match e.act with
  | .prover _ c _ => some c.env.height
  | _ => none

/-- In the history `l` someone had the prover at `Q` make a new batch, of the messages `msgs` and, if `o` is a worker
set, with a transfer to it: the messages are what the gateway answered for the ids requested, which had no batch yet;
and `o` is the set of the active workers with their keys in that block, if it differs enough from the current one.  An
update of the worker set has no messages. -/
def BegunAt (P : Params) (setup : Setup) (l : List Entry) (Q : Addr) (pc : Prover.Config) (sv : Str)
    (kt : Multisig.KeyType) (o : Option WorkerSet) (msgs : List Message) : Prop :=
  ∃ l₁ e l₂ height workers new cur, l = l₁ ++ e :: l₂ ∧ e.p.target = Q ∧ proverHeight e = some height ∧
    askWorkers (worldOf P setup l₁) pc.serviceRegistry sv pc.chainName = some workers ∧
    SetOf pc.signingThreshold (askKey (worldOf P setup l₁) pc.multisig kt) height workers new ∧
    (∀ x ∈ workers, ∃ k, askKey (worldOf P setup l₁) pc.multisig kt x.address = .ok k) ∧
    currentSet (worldOf P setup l₁) Q = some cur ∧
    o = (if pc.diffThreshold < membershipChanges new cur then some new else none) ∧
    ((∃ ids, e.p.msg = .prover (.constructProof ids) ∧ askGateway (worldOf P setup l₁) pc.gateway ids = .ok msgs ∧
        msgs.map (·.ccId) = ids ∧ storedBatch (worldOf P setup l₁) Q (batchId P.X ids none) = none) ∨
      (e.p.msg = .prover .updateWorkerSet ∧ msgs = [] ∧ o ≠ none))

/-- no batch that was made with a transfer has the id of another batch -/
def BatchIdsApart (P : Params) (setup : Setup) (l : List Entry) (Q : Addr) (pc : Prover.Config) (sv : Str)
    (kt : Multisig.KeyType) : Prop :=
  ∀ o msgs ws msgs', BegunAt P setup l Q pc sv kt o msgs → BegunAt P setup l Q pc sv kt (some ws) msgs' →
    batchId P.X (msgs.map (·.ccId)) o = batchId P.X (msgs'.map (·.ccId)) (some ws) → o = some ws ∧ msgs = msgs'

/-! ### Helper lemmas -/

variable {P : Params} {setup : Setup} {l l₁ l₂ : List Entry} {w w' : World} {R Q : Addr} {e : Entry}
  {rc : Router.Config} {nc : Nexus.Config} {pc : Prover.Config} {sv : Str} {kt : Multisig.KeyType}
  {mc : Multisig.Config}

/-- the gateway answers with the messages of the ids -/
theorem askGateway_ids {G : Addr} {gc : Gateway.Config} (hi : Inv P setup l w) (hG : setup G = some (.gateway gc))
    {ids : List CCId} {ms : List Message} (h : askGateway w G ids = .ok ms) : ms.map (·.ccId) = ids := by
  unfold askGateway at h
  rw [hi.gateway_state hG] at h
  simp only at h
  split at h
  · rename_i ms' hg
    simp only [Except.ok.injEq] at h
    subst h
    unfold Gateway.getMessages at hg
    induction ids generalizing ms' with
    | nil => simp only [mapE, Except.ok.injEq] at hg; subst hg; rfl
    | cons i t ih =>
      obtain ⟨x, r, h1, h2, rfl⟩ := mapE_cons_ok.mp hg
      rw [List.map_cons, ih _ h2]
      congr 1
      unfold Gateway.loadOutgoing at h1
      cases hout : (Gateway.stateAfter gc (gatewayCalls G l)).outgoing i with
      | none => rw [hout] at h1; simp at h1
      | some m =>
        rw [hout] at h1
        simp only [Except.ok.injEq] at h1
        subst h1
        exact (Gateway.C27_stored_under_own_id gc _ i m hout).1
  · simp at h

theorem begun_of_begins (hi : Inv P setup l w) {ops : List Prover.Op} (hp : Pair P setup Q pc sv kt mc l w ops)
    {gc : Gateway.Config} (hG : setup pc.gateway = some (.gateway gc)) {st : Amp.Step Sys Prover.Op SysResp}
    (hst : st ∈ sysLog P.X P.C Q pc mc ops) {o : Option WorkerSet} {msgs : List Message}
    (h : Prover.Begins P.X pc st o msgs) : BegunAt P setup l Q pc sv kt o msgs := by
  obtain ⟨m, env, new, cur, hc, hmk, _, hcur, _, ho, hm⟩ := h
  obtain ⟨k₁, e, k₂, b, hl, ht, hmsg, rfl, hpre, reply, r, hact⟩ := hp.calls st hst m env hc
  obtain ⟨workers, hwk, hset⟩ := Prover.setOf_makeWorkerSet hmk
  have hks := Prover.setOf_keys hmk hwk
  have hwk' : askWorkers (worldOf P setup k₁) pc.serviceRegistry sv pc.chainName = some workers := by
    unfold proverEnv at hwk
    simp only at hwk
    split at hwk
    · rename_i ws hw
      simp only [Except.ok.injEq] at hwk
      rw [hw, hwk]
    · simp at hwk
  refine ⟨k₁, e, k₂, b.height, workers, new, cur, hl, ht, by unfold proverHeight; rw [hact]; rfl, hwk', hset, hks, ?_, ho, ?_⟩
  · unfold currentSet
    rw [hpre]
    exact hcur
  · rcases hm with ⟨ids, rfl, hg, hn⟩ | ⟨rfl, hm, ws, hw⟩
    · exact Or.inl ⟨ids, hmsg, hg, askGateway_ids (hi.prefix hl) hG hg, by unfold storedBatch; rw [hpre]; exact hn⟩
    · exact Or.inr ⟨hmsg, hm, by rw [hw]; simp⟩

theorem batchesApart (hi : Inv P setup l w) {ops : List Prover.Op} (hp : Pair P setup Q pc sv kt mc l w ops)
    {gc : Gateway.Config} (hG : setup pc.gateway = some (.gateway gc)) (ha : BatchIdsApart P setup l Q pc sv kt) :
    Prover.BatchesApart P.X pc (sysLog P.X P.C Q pc mc ops) := by
  constructor
  · intro st hst ids env msgs hc hg
    obtain ⟨k₁, e, k₂, b, hl, _, _, rfl, _⟩ := hp.calls st hst _ _ hc
    exact askGateway_ids (hi.prefix hl) hG hg
  · intro st hst st' hst' o ws msgs msgs' h h' hid
    exact ha o msgs ws msgs' (begun_of_begins hi hp hG hst h) (begun_of_begins hi hp hG hst' h') hid

/-! ### C109 -/

/-- C109, for histories in which no batch with a transfer has the id of another batch: the payload of a completed
proof is the content that a quorum of the worker set signed, which was the prover's when signatures were asked for; it
approves exactly the messages whose ids are shown, each injected by nexus or verified at its source, and nothing else
but possibly the transfer to a new worker set. -/
theorem C109_content_partial (P : Params) (setup : Setup) (txs : List Tx) (R : Addr) (rc : Router.Config)
    (nc : Nexus.Config) (hw : Wired setup (log P setup txs) R rc nc) (Q : Addr) (pc : Prover.Config) (sv : Str)
    (kt : Multisig.KeyType) (hQ : setup Q = some (.prover pc sv kt)) (mc : Multisig.Config)
    (hM : setup pc.multisig = some (.multisig mc)) (gc : Gateway.Config)
    (hG : setup pc.gateway = some (.gateway gc)) (hr : gc.router = R)
    (hd : SetsDistinctAt P (log P setup txs) pc.multisig)
    (ha : BatchIdsApart P setup (log P setup txs) Q pc sv kt) (sid : Nat) (p : Prover.Proof) (d : Encoding.Bytes)
    (h : askProof P (worldAfter P setup txs) Q sid = .ok p) (hc : p.status = .completed d) :
    ∃ l₁ e l₂ cur digest signers b ws msgs,
      log P setup txs = l₁ ++ e :: l₂ ∧ e.p.target = Q ∧ currentSet (worldOf P setup l₁) Q = some cur ∧
      IsBatch P.X pc ws msgs b ∧ p.data = b.data ∧ p.messageIds = msgs.map (·.ccId) ∧
      dataDigest P.X pc.encoder p.data = .ok digest ∧ QuorumSigned P.C cur digest signers ∧
      executeDataOf P.X pc.encoder p.data cur.threshold signers = .ok d ∧
      ∀ m ∈ msgs, InjectedByNexus (log P setup txs) rc.nexusGateway nc m ∨
        VerifiedAtSource P setup (log P setup txs) (worldAfter P setup txs) R m := by
  have hi := inv P setup txs
  obtain ⟨ops, hp⟩ := pair P setup txs hQ hM
  rw [askProof_eq hp] at h
  obtain ⟨st, hst, bid, b, cur, digest, signers, hop, hqs, hexec⟩ :=
    Prover.C58_signed P.X P.C Q pc mc ops (setsDistinct hi hp hM hd) sid p d h hc
  obtain ⟨hdata, hids, st', hst', ws, msgs, hbg, hbatch⟩ :=
    Prover.shown_kept ops (batchesApart hi hp hG ha) h hst hop
  have hcall : ∃ m env, st.call = .prover m env := by
    obtain ⟨pr, hpr, _⟩ := hop.event
    rcases Prover.sys_ok (steps_mem _ hst).2 with ⟨c, mr, _, _, _, hno⟩ | ⟨m, env, _, _, hcl, _⟩
    · rw [hpr] at hno; simp at hno
    · exact ⟨m, env, hcl⟩
  obtain ⟨m, env, hcl⟩ := hcall
  obtain ⟨l₁, e, l₂, bl, hl, ht, _, _, hpre, _⟩ := hp.calls st hst m env hcl
  refine ⟨l₁, e, l₂, cur, digest, signers, b, ws, msgs, hl, ht, ?_, hbatch, hdata, by rw [hids, hbatch.ids],
    by rw [hdata]; exact hop.digestOf, hqs, hexec, ?_⟩
  · unfold currentSet
    rw [hpre]
    exact hop.current
  · obtain ⟨k₁, e', k₂, _, _, _, _, hl', _, _, _, _, _, _, _, hm⟩ := begun_of_begins hi hp hG hst' hbg
    rcases hm with ⟨ids, _, hg, _⟩ | ⟨_, hm, _⟩
    · intro m hmem
      obtain ⟨id, _, hask⟩ := askGateway_mem hg hmem
      exact source_mono hi hw hl' (outgoing_source (hi.prefix hl') (hw.mono hl') hG hr hask).2
    · rw [hm]; simp

/-- C109, when the hypothesis holds: the ids of the messages have no commas; no two different worker sets, and no two
different texts of batches, that occur in the history have the same hash; and no two requests to transfer to the same
worker set, made in the same block, list the same messages in a different order. -/
theorem C109_apart (P : Params) (setup : Setup) (l : List Entry) (Q : Addr) (pc : Prover.Config) (sv : Str)
    (kt : Multisig.KeyType)
    (hplain : ∀ o msgs, BegunAt P setup l Q pc sv kt o msgs → ∀ m ∈ msgs, PlainId m.ccId)
    (hsets : ∀ ws msgs ws' msgs', BegunAt P setup l Q pc sv kt (some ws) msgs →
      BegunAt P setup l Q pc sv kt (some ws') msgs' → P.X.wsHash ws = P.X.wsHash ws' → ws = ws')
    (htexts : ∀ o msgs o' msgs', BegunAt P setup l Q pc sv kt o msgs → BegunAt P setup l Q pc sv kt o' msgs' →
      ¬ TextCollision P.X (batchText P.X (msgs.map (·.ccId)) o) (batchText P.X (msgs'.map (·.ccId)) o'))
    (horder : ∀ ws msgs msgs', BegunAt P setup l Q pc sv kt (some ws) msgs →
      BegunAt P setup l Q pc sv kt (some ws) msgs' → (msgs.map (·.ccId)).Perm (msgs'.map (·.ccId)) → msgs = msgs') :
    BatchIdsApart P setup l Q pc sv kt := by
  intro o msgs ws msgs' h h' hid
  rcases Prover.C56_identifies P.X _ _ o (some ws) (by simpa using hplain o msgs h)
    (by simpa using hplain _ msgs' h') hid with ⟨hperm, ho⟩ | hcol | ⟨w, w', hw, hw', hne, hcol⟩
  · subst ho
    exact ⟨rfl, horder ws msgs msgs' h h' hperm⟩
  · exact absurd hcol (htexts o msgs (some ws) msgs' h h')
  · subst hw
    simp only [Option.some.injEq] at hw'
    subst hw'
    exact absurd (hsets w msgs ws msgs' h h' hcol) hne

end Amp.Chain
