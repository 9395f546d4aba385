import Verif.Prover.Signed

/-!
# Batches that are begun, and batches that are kept

Lemmas for C109, about a prover with its multisig contract.
-/

namespace Amp.Prover

open Amp.Encoding
open Amp.Multisig (WorkerSet Crypto)
open Amp.Router (CCId Message)

variable {X : Ext} {C : Crypto} {self : Addr} {cfg : Config} {mcfg : Multisig.Config}

/-- in this step the prover makes a new batch, of `msgs` and with a transfer to `o` if that is a worker set -/
def Begins (X : Ext) (cfg : Config) (st : Step Sys Op SysResp) (o : Option WorkerSet) (msgs : List Message) : Prop :=
  ∃ m env new cur, st.call = .prover m env ∧ makeWorkerSet cfg env = .ok new ∧ SetWF new ∧
    st.pre.prover.current = some cur ∧ SetWF cur ∧
    o = (if cfg.diffThreshold < membershipChanges new cur then some new else none) ∧
    ((∃ ids, m = .constructProof ids ∧ env.gateway ids = .ok msgs ∧
        st.pre.prover.batches (batchId X ids none) = none) ∨
      (m = .updateWorkerSet ∧ msgs = [] ∧ ∃ w, o = some w))

/-- the gateway answers requests with messages of the requested ids, in that order; and no step of the history begins
a batch with a transfer that has the id of another one -/
structure BatchesApart (X : Ext) (cfg : Config) (log : List (Step Sys Op SysResp)) : Prop where
  own : ∀ st ∈ log, ∀ ids env msgs, st.call = .prover (.constructProof ids) env → env.gateway ids = .ok msgs →
    msgs.map (·.ccId) = ids
  apart : ∀ st ∈ log, ∀ st' ∈ log, ∀ o w msgs msgs', Begins X cfg st o msgs → Begins X cfg st' (some w) msgs' →
    batchId X (msgs.map (·.ccId)) o = batchId X (msgs'.map (·.ccId)) (some w) → o = some w ∧ msgs = msgs'

/-- what a step does to the stored batches -/
theorem batches_begun {S S' : Sys} {op : Op} {r : SysResp} (hx : sysExec X C self S op = .ok (S', r))
    (hp : ∃ pcs, S.prover = stateAfter X cfg pcs) :
    S'.prover.batches = S.prover.batches ∨
    ∃ o msgs b, S'.prover.batches = S.prover.batches.set b.id b ∧ buildBatch X cfg o msgs = .ok b ∧
      b.id = batchId X (msgs.map (·.ccId)) o ∧ Begins X cfg ⟨S, op, r, S'⟩ o msgs := by
  obtain ⟨pcs, hp⟩ := hp
  have hcfg : S.prover.config = cfg := by rw [hp]; exact config_stateAfter X cfg pcs
  have hwf := (current_wf X cfg pcs).1
  rw [← hp] at hwf
  rcases sys_ok hx with ⟨c, mr, _, _, h1, _⟩ | ⟨msg, env, pr, mr, rfl, rfl, h1, h2⟩
  · left; rw [h1]
  cases exec_effect h1 with
  | first new hm' hc hn hs hr' => left; rw [hs]
  | confirmed ws ops hm' hpend ho hv hs hr' => left; rw [hs]
  | reused ids b cur digest sid' hm' hb hg hc hd ha hs hr' => left; rw [hs]
  | built ids msgs ws b cur digest sid' hm' hw hb hpend hc hd ha hs hr' =>
    right
    rw [hcfg] at hb
    obtain ⟨new, cur', g1, g2, g3⟩ := nextWorkerSet_ok.mp hw
    rw [hcfg] at g1 g3
    have w1 := setWF_makeWorkerSet g1
    have w2 := hwf cur' g2
    refine ⟨ws, msgs, b, by rw [hs], hb, (isBatch_build hb).2, msg, env, new, cur', rfl, g1, w1, g2, w2, ?_, ?_⟩
    · rw [g3]
      by_cases hd : cfg.diffThreshold < membershipChanges new cur'
      · rw [if_pos hd, if_pos ((shouldUpdate_iff w1 w2 _).mpr hd)]
      · rw [if_neg hd, if_neg (fun h => hd ((shouldUpdate_iff w1 w2 _).mp h))]
    · rcases hm' with ⟨hm', hg, hn⟩ | ⟨hm', _, hm, hw'⟩
      · exact Or.inl ⟨ids, hm', (getMessages_ok.mp hg).1, hn⟩
      · exact Or.inr ⟨hm', hm, hw'⟩

/-- stored batches were begun; and if no two different ones have the same id they are kept -/
theorem batches_kept_apart (ops : List Op) :
    (∀ bid b, (sysAfter X C self cfg mcfg ops).prover.batches bid = some b →
      ∃ e ∈ sysLog X C self cfg mcfg ops, ∃ o msgs, Begins X cfg e o msgs ∧ buildBatch X cfg o msgs = .ok b ∧
        bid = batchId X (msgs.map (·.ccId)) o) ∧
    (BatchesApart X cfg (sysLog X C self cfg mcfg ops) → ∀ e ∈ sysLog X C self cfg mcfg ops, ∀ bid b,
      e.post.prover.batches bid = some b → (sysAfter X C self cfg mcfg ops).prover.batches bid = some b) := by
  unfold sysAfter sysLog
  refine (steps_inv (sysExec X C self) (P := fun log S =>
    ((∃ mcs, S.multisig = Multisig.stateAfter C (workerSetId X) mcfg mcs) ∧
      ∃ pcs, S.prover = stateAfter X cfg pcs) ∧
    (∀ bid b, S.prover.batches bid = some b → ∃ e ∈ log, ∃ o msgs, Begins X cfg e o msgs ∧
      buildBatch X cfg o msgs = .ok b ∧ bid = batchId X (msgs.map (·.ccId)) o) ∧
    (BatchesApart X cfg log → ∀ e ∈ log, ∀ bid b,
      e.post.prover.batches bid = some b → S.prover.batches bid = some b))
    (sysInit cfg mcfg) ⟨⟨⟨[], rfl⟩, ⟨[], rfl⟩⟩, by intro bid b h; simp [sysInit, init] at h, by simp⟩ ?_ ops).2
  rintro log S op S' r ⟨⟨hm, hp⟩, hmade, ih⟩ hx
  have hsub : ∀ e ∈ log, e ∈ log ++ [⟨S, op, r, S'⟩] := fun e he => List.mem_append_left _ he
  have hlast : (⟨S, op, r, S'⟩ : Step Sys Op SysResp) ∈ log ++ [⟨S, op, r, S'⟩] :=
    List.mem_append_right _ (List.mem_singleton_self _)
  refine ⟨sys_reach hx hm hp, ?_, ?_⟩
  · intro bid b hb
    have old : S.prover.batches bid = some b → ∃ e ∈ log ++ [⟨S, op, r, S'⟩], ∃ o msgs, Begins X cfg e o msgs ∧
        buildBatch X cfg o msgs = .ok b ∧ bid = batchId X (msgs.map (·.ccId)) o := by
      intro h
      obtain ⟨e, he, rest⟩ := hmade bid b h
      exact ⟨e, hsub e he, rest⟩
    rcases batches_begun hx hp with h | ⟨o, msgs, b', h, hbd, hid, hbg⟩
    · rw [h] at hb; exact old hb
    · rw [h, KV.set_apply] at hb
      split at hb
      · rename_i heq
        simp only [Option.some.injEq] at hb
        subst hb
        exact ⟨_, hlast, o, msgs, hbg, hbd, by rw [heq, hid]⟩
      · exact old hb
  · intro hap e he bid b hb
    rcases List.mem_append.mp he with he | he
    swap
    · rw [List.mem_singleton] at he; subst he; exact hb
    have hold := ih ⟨fun st hst => hap.own st (hsub st hst),
      fun st hst st' hst' => hap.apart st (hsub st hst) st' (hsub st' hst')⟩ e he bid b hb
    rcases batches_begun hx hp with h | ⟨o, msgs, b', h, hbd, hid, hbg⟩
    · rw [h]; exact hold
    · rw [h, KV.set_apply]
      split
      · rename_i heq
        obtain ⟨e0, he0, o0, msgs0, hbg0, hbd0, hid0⟩ := hmade _ _ hold
        cases o with
        | none =>
          obtain ⟨m, env, new, cur, hcl, _, _, _, _, _, ⟨ids, rfl, hg, hnone⟩ | ⟨_, _, _, hw⟩⟩ := hbg
          · have := hap.own _ hlast ids env msgs hcl hg
            rw [heq, hid, this] at hold
            simp only at hnone
            rw [hnone] at hold
            simp at hold
          · simp at hw
        | some w =>
          obtain ⟨ho, hm⟩ := hap.apart e0 (hsub e0 he0) _ hlast o0 w msgs0 msgs hbg0 hbg (by rw [← hid0, heq, hid])
          subst ho
          subst hm
          rw [hbd0] at hbd
          simpa using hbd.symm
      · exact hold

/-- a session stays linked to the batch for which it was opened -/
theorem opened_link (ops : List Op) {e : Step Sys Op SysResp} (he : e ∈ sysLog X C self cfg mcfg ops) {sid : Nat}
    {bid : Bytes} {b : Batch} {cur : WorkerSet} {digest : Bytes} (h : Opened X cfg e sid bid b cur digest) :
    (sysAfter X C self cfg mcfg ops).prover.sessionBatch sid = some bid := by
  obtain ⟨⟨cs₁, cs₂, hcs, hpre⟩, hx⟩ := steps_mem _ he
  obtain ⟨e1, e2, e3, e4⟩ := e
  have hreach := runCalls_inv (sysExec X C self) (P := fun S : Sys =>
      (∃ mcs, S.multisig = Multisig.stateAfter C (workerSetId X) mcfg mcs) ∧
      (∃ pcs, S.prover = stateAfter X cfg pcs))
      (fun S op S' r hi hx => sys_reach hx hi.1 hi.2) (sysInit cfg mcfg) ⟨⟨[], rfl⟩, ⟨[], rfl⟩⟩ cs₁
  rw [← hpre] at hreach
  obtain ⟨pr, hpr, hev⟩ := h.event
  obtain ⟨hlink, _⟩ := opened_of_event hx hreach.1 hreach.2 hpr hev
  have hafter : sysAfter X C self cfg mcfg (cs₁ ++ [e2]) = e4 := by
    simp only at hpre hx
    unfold sysAfter
    rw [runCalls_append, runCalls_cons, ← hpre, hx]
    rfl
  have := C58_link_permanent X C self cfg mcfg (cs₁ ++ [e2]) cs₂ sid bid (by rw [hafter, hlink]; simp)
  rw [hcs]
  simpa using this

/-- what `GetProof` shows for a session is the batch for which the session was opened -/
theorem shown_kept (ops : List Op) (hap : BatchesApart X cfg (sysLog X C self cfg mcfg ops)) {sid : Nat} {p : Proof}
    (h : sysProof X (sysAfter X C self cfg mcfg ops) sid = .ok p) {e : Step Sys Op SysResp}
    (he : e ∈ sysLog X C self cfg mcfg ops) {bid : Bytes} {b : Batch} {cur : WorkerSet} {digest : Bytes}
    (hop : Opened X cfg e sid bid b cur digest) :
    p.data = b.data ∧ p.messageIds = b.messageIds ∧ ∃ e' ∈ sysLog X C self cfg mcfg ops, ∃ o msgs,
      Begins X cfg e' o msgs ∧ IsBatch X cfg o msgs b := by
  have hb : ∃ bid b, (sysAfter X C self cfg mcfg ops).prover.sessionBatch sid = some bid ∧
      (sysAfter X C self cfg mcfg ops).prover.batches bid = some b ∧ p.data = b.data ∧
      p.messageIds = b.messageIds := by
    unfold sysProof getProof at h
    generalize sysAfter X C self cfg mcfg ops = S at h ⊢
    split at h
    · simp at h
    rename_i bid h1
    split at h
    · simp at h
    rename_i b h2
    refine ⟨bid, b, h1, h2, ?_⟩
    split at h
    · simp at h
    split at h
    · simp at h
    split at h
    · simp only [Except.ok.injEq] at h; rw [← h]; exact ⟨rfl, rfl⟩
    · split at h
      · simp at h
      · split at h
        · simp at h
        · simp at h
        · simp only [Except.ok.injEq] at h; rw [← h]; exact ⟨rfl, rfl⟩
  obtain ⟨bid', b', h1, h2, h3, h3'⟩ := hb
  rw [opened_link ops he hop] at h1
  simp only [Option.some.injEq] at h1
  subst h1
  obtain ⟨hk1, hk2⟩ := batches_kept_apart (X := X) (C := C) (self := self) (cfg := cfg) (mcfg := mcfg) ops
  have hkept := hk2 hap e he bid b hop.batch
  rw [h2] at hkept
  simp only [Option.some.injEq] at hkept
  subst hkept
  obtain ⟨e', he', o, msgs, hbg, hbd, _⟩ := hk1 bid b' h2
  exact ⟨h3, h3', e', he', o, msgs, hbg, (isBatch_build hbd).1⟩

end Amp.Prover
