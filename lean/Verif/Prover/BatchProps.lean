import Verif.Prover.SetProps
import Verif.Prover.BatchIds
import Verif.Gateway.Props

/-!
# The contents of batches: C57
-/

namespace Amp.Prover

open Amp.Encoding
open Amp.Multisig (Signature PublicKey Signer WorkerSet)
open Amp.Router (CCId Message ChainName)

/-- C57: in any history, for every successful proof request, the gateway has answered with as many messages
as there are ids, all of them for the chain of this prover; the batch of the session is stored; and it has
one approval for each of these messages, in the order of the answer, after at most one transfer, unless it
had been stored before. -/
theorem C57_request (X : Ext) (cfg : Config) (cs : List Call) (e : Step State Call Resp)
    (he : e ∈ steps (exec X) (init cfg) cs) (ids : List CCId) (hm : e.call.msg = .constructProof ids) :
    ∃ msgs b sid, e.call.env.gateway ids = .ok msgs ∧ msgs.length = ids.length ∧
      (∀ m ∈ msgs, m.destinationChain = cfg.chainName) ∧
      e.resp.event = some (sid, b.id) ∧ e.post.batches b.id = some b ∧
      ((∃ ws, IsBatch X cfg ws msgs b) ∨
        (e.pre.batches (batchId X ids none) = some b ∧ e.post.batches = e.pre.batches)) := by
  obtain ⟨⟨cs₁, cs₂, _, hpre⟩, hx⟩ := steps_mem (exec X) he
  have hcfg : e.pre.config = cfg := by rw [hpre]; exact config_stateAfter X cfg cs₁
  have hids : ∀ bid b, e.pre.batches bid = some b → b.id = bid := by
    rw [hpre]
    refine runCalls_inv (exec X) (P := fun s : State => ∀ bid b, s.batches bid = some b → b.id = bid) ?_
      (init cfg) (by intro bid b h; simp [init] at h) cs₁
    intro s c s' r ih hx bid b hb
    cases exec_effect hx with
    | first new hm hc hn hs hr => rw [hs] at hb; exact ih bid b hb
    | confirmed ws ops hm hp' ho hv hs hr => rw [hs] at hb; exact ih bid b hb
    | reused ids b' cur digest sid hm hb' hg hc hd ha hs hr => rw [hs] at hb; exact ih bid b hb
    | built ids msgs ws b' cur digest sid' hm hw hb' hp' hc hd ha hs hr =>
      rw [hs] at hb
      simp only [KV.set_apply] at hb
      split at hb
      · rename_i h
        simp only [Option.some.injEq] at hb
        subst hb
        exact h.symm
      · exact ih bid b hb
  cases exec_effect hx with
  | first new hm' hc hn hs hr => rw [hm] at hm'; simp at hm'
  | confirmed ws ops hm' hp' ho hv hs hr => rw [hm] at hm'; simp at hm'
  | reused ids' b cur digest sid hm' hb hg hc hd ha hs hr =>
    rw [hm] at hm'
    simp only [Msg.constructProof.injEq] at hm'
    subst hm'
    obtain ⟨msgs, hg⟩ := hg
    obtain ⟨h1, h2, h3⟩ := getMessages_ok.mp hg
    rw [hcfg] at h3
    have hbid := hids _ _ hb
    refine ⟨msgs, b, sid, h1, h2, h3, by rw [hr], ?_, Or.inr ⟨hb, by rw [hs]⟩⟩
    rw [hs, hbid]
    exact hb
  | built ids' msgs ws b cur digest sid hm' hw hb hp' hc hd ha hs hr =>
    rcases hm' with ⟨hm', hg, _⟩ | ⟨hm', _⟩
    · rw [hm] at hm'
      simp only [Msg.constructProof.injEq] at hm'
      subst hm'
      obtain ⟨h1, h2, h3⟩ := getMessages_ok.mp hg
      rw [hcfg] at h3 hb
      exact ⟨msgs, b, sid, h1, h2, h3, by rw [hr], by rw [hs]; simp, Or.inl ⟨ws, (isBatch_build hb).1⟩⟩
    · rw [hm] at hm'
      simp at hm'

/-- where a stored batch comes from: a request for `ids`, or an update with no messages -/
def Origin (X : Ext) (cfg : Config) (log : List (Step State Call Resp)) (bid : Bytes) (b : Batch)
    (ws : Option WorkerSet) : Prop :=
  ∃ e ∈ log, ∃ msgs, b.id = bid ∧ bid = batchId X b.messageIds ws ∧ IsBatch X cfg ws msgs b ∧
    (∀ m ∈ msgs, m.destinationChain = cfg.chainName) ∧
    ((∃ ids, e.call.msg = .constructProof ids ∧ e.call.env.gateway ids = .ok msgs ∧
        msgs.length = ids.length) ∨
      (e.call.msg = .updateWorkerSet ∧ msgs = [] ∧ ws ≠ none))

/-- C57: every batch that is ever stored was built by an earlier call, from the answer of the gateway to the
ids of that call, or, for an update of the worker set, from no messages; no message in it is for another
chain. -/
theorem C57_stored (X : Ext) (cfg : Config) (cs : List Call) (bid : Bytes) (b : Batch)
    (h : (stateAfter X cfg cs).batches bid = some b) :
    ∃ ws, Origin X cfg (steps (exec X) (init cfg) cs) bid b ws := by
  revert h
  revert b bid
  unfold stateAfter
  refine (steps_inv (exec X) (P := fun log s => s.config = cfg ∧ ∀ bid b, s.batches bid = some b →
    ∃ ws, Origin X cfg log bid b ws)
    (init cfg) ⟨rfl, by intro bid b h; simp [init] at h⟩ ?_ cs).2
  rintro log s c s' r ⟨hcfg, ih⟩ hx
  refine ⟨by rw [config_const hx, hcfg], ?_⟩
  intro bid b hb
  have old : s.batches bid = some b → ∃ ws, Origin X cfg (log ++ [⟨s, c, r, s'⟩]) bid b ws := by
    intro h
    obtain ⟨ws, e, he, rest⟩ := ih bid b h
    exact ⟨ws, e, List.mem_append_left _ he, rest⟩
  cases exec_effect hx with
  | first new hm hc hn hs hr => rw [hs] at hb; exact old hb
  | confirmed ws ops hm hp' ho hv hs hr => rw [hs] at hb; exact old hb
  | reused ids b' cur digest sid hm hb' hg hc hd ha hs hr => rw [hs] at hb; exact old hb
  | built ids msgs ws b' cur digest sid' hm hw hb' hp' hc hd ha hs hr =>
    rw [hs] at hb
    simp only [KV.set_apply] at hb
    split at hb
    · rename_i hbid
      simp only [Option.some.injEq] at hb
      subst hb
      rw [hcfg] at hb'
      obtain ⟨h1, h2⟩ := isBatch_build hb'
      refine ⟨ws, _, List.mem_append_right _ (List.mem_singleton_self _), msgs, hbid.symm, ?_, h1, ?_, ?_⟩
      · rw [hbid, h2, h1.ids]
      · rcases hm with ⟨_, hg, _⟩ | ⟨_, _, hms, _⟩
        · have := (getMessages_ok.mp hg).2.2
          rw [hcfg] at this
          exact this
        · subst hms; simp
      · rcases hm with ⟨hm, hg, _⟩ | ⟨hm, _, hms, w, hw'⟩
        · obtain ⟨h3, h4, _⟩ := getMessages_ok.mp hg
          exact Or.inl ⟨ids, hm, h3, h4⟩
        · exact Or.inr ⟨hm, hms, by rw [hw']; simp⟩
    · exact old hb

/-- C57: a stored batch that is used again has exactly the requested message ids, up to their order, and no
transfer, if the ids are plain (no commas), unless the texts hashed for its id and for the request collide. -/
theorem C57_reused (X : Ext) (cfg : Config) (cs : List Call) (ids : List CCId) (b : Batch)
    (h : (stateAfter X cfg cs).batches (batchId X ids none) = some b)
    (hids : ∀ c ∈ ids, PlainId c) (hb : ∀ c ∈ b.messageIds, PlainId c) :
    (ids.Perm b.messageIds ∧ ∃ msgs, IsBatch X cfg none msgs b) ∨
      ∃ ws, Origin X cfg (steps (exec X) (init cfg) cs) (batchId X ids none) b ws ∧
        TextCollision X (batchText X ids none) (batchText X b.messageIds ws) := by
  obtain ⟨ws, hor⟩ := C57_stored X cfg cs _ b h
  have hor' := hor
  obtain ⟨e, _, msgs, _, hid, hbatch, _⟩ := hor'
  rcases C56_identifies X ids b.messageIds none ws hids hb hid with ⟨h1, h2⟩ | h | ⟨w, _, h, _⟩
  · subst h2
    exact Or.inl ⟨h1, msgs, hbatch⟩
  · exact Or.inr ⟨ws, hor, h⟩
  · simp at h

/-- C57: a request is refused, and so nothing is signed, if one of the messages is for another chain. -/
theorem C57_refused (X : Ext) (s : State) (c : Call) (ids : List CCId) (msgs : List Message) (m : Message)
    (hm : c.msg = .constructProof ids) (hg : c.env.gateway ids = .ok msgs) (hmem : m ∈ msgs)
    (hd : m.destinationChain ≠ s.config.chainName) : ∃ e, exec X s c = .error e := by
  cases hx : getMessages s c.env ids with
  | ok ms =>
    obtain ⟨h1, _, h3⟩ := getMessages_ok.mp hx
    rw [hg] at h1
    simp only [Except.ok.injEq] at h1
    subst h1
    exact absurd (h3 m hmem) hd
  | error e =>
    exact ⟨e, by simp only [exec, hm, handle, constructProof, hx]⟩

/-- the answer of a gateway to the prover: its errors reach the prover as a failed query -/
def gatewayAnswer (g : Gateway.State) (ids : List CCId) : Except Err (List Message) :=
  match Gateway.getMessages g ids with
  | .ok ms => .ok ms
  | .error _ => .error .std

/-- C57, with the gateway: a request answered by the modelled gateway, in any of its reachable states, yields
a session whose batch, if it is new, approves exactly the messages the router last delivered under the
requested ids, in the order asked for. -/
theorem C57_with_gateway (X : Ext) (cfg : Config) (cs : List Call) (e : Step State Call Resp)
    (he : e ∈ steps (exec X) (init cfg) cs) (ids : List CCId) (hm : e.call.msg = .constructProof ids)
    (hnew : e.pre.batches (batchId X ids none) = none)
    (gcfg : Gateway.Config) (gcs : List Gateway.Call)
    (hg : e.call.env.gateway = gatewayAnswer (Gateway.stateAfter gcfg gcs)) :
    ∃ msgs b sid ws, ids.map (Gateway.lastDelivered gcfg (Gateway.history gcfg gcs)) = msgs.map some ∧
      e.resp.event = some (sid, b.id) ∧ e.post.batches b.id = some b ∧
      b.messageIds = ids ∧ IsBatch X cfg ws msgs b := by
  obtain ⟨msgs, b, sid, h1, h2, h3, h4, h5, h6⟩ := C57_request X cfg cs e he ids hm
  rcases h6 with ⟨ws, hb⟩ | ⟨h6, _⟩
  swap
  · rw [hnew] at h6; simp at h6
  rw [hg] at h1
  have hq : Gateway.getMessages (Gateway.stateAfter gcfg gcs) ids = .ok msgs := by
    unfold gatewayAnswer at h1
    cases hq : Gateway.getMessages (Gateway.stateAfter gcfg gcs) ids with
    | error e => rw [hq] at h1; simp at h1
    | ok ms => rw [hq] at h1; simpa using h1
  have hl := (Gateway.C27_query_exact gcfg gcs ids msgs).mp hq
  refine ⟨msgs, b, sid, ws, hl, h4, h5, ?_, hb⟩
  rw [hb.ids]
  have hout : ∀ id m, Gateway.lastDelivered gcfg (Gateway.history gcfg gcs) id = some m → m.ccId = id := by
    intro id m h
    rw [← Gateway.C27_outgoing_from_router] at h
    exact (Gateway.C27_stored_under_own_id gcfg gcs id m h).1
  clear h2 h3 h1 hq hb hm hnew
  induction ids generalizing msgs with
  | nil =>
    have := List.map_eq_nil_iff.mp hl.symm
    subst this
    rfl
  | cons id t ih =>
    cases msgs with
    | nil => simp at hl
    | cons m ms =>
      simp only [List.map_cons, List.cons.injEq] at hl
      rw [List.map_cons, hout id m hl.1, ih ms hl.2]

/-- a request for two messages, and for the same ones in another order -/
example : (steps (exec exX) (init exCfg) exCalls).map (fun e => match e.resp.event with
      | none => none
      | some (sid, bid) => (e.post.batches bid).map (fun b => (sid, b.messageIds, b.data.commands.length))) =
    [none, some (1, [], 1), none, some (2, [exId1, exId2], 2), some (3, [exId1, exId2], 2),
      some (4, [exId2], 2)] := by decide +kernel

end Amp.Prover
