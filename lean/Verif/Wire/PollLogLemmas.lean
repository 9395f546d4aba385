import Verif.Wire.PollLogSpec
import Verif.Wire.LogLemmas
import Verif.Wire.QueryLemmas
import Verif.Wire.FitLemmas
import Verif.VV.ProgressProps

/-! # The events of a voting verifier and its storage agree -/

namespace Amp.Wire

open Amp.Router (Message)
open Amp.Std (Operators Vote)
open Amp.Ampd (lastWith)
open Amp.Chain (Act Entry)

variable {finite : Str → Bool} {T : Texts}

/-! ### Reading -/

/-- what an event tells of polls -/
def pollNoticeFor : VV.Event → Option PollNotice
  | .messagesPollStarted confs pm => some (.messages pm.pollId confs)
  | .workerSetPollStarted _ _ o pm => some (.workerSet pm.pollId o)
  | .voted _ _ => none
  | .pollEnded id rs => some (.ended id rs)

/-- the event is in the range of its types, with its number -/
def PollNoticeFits (ev : VV.Event) : Prop := EventFits ev ∧ ∀ id rs, ev = .pollEnded id rs → id ≤ u64Max

theorem confirmationIn_json {c : VV.TxConfirmation} (h : ConfirmationFits c) : confirmationIn (jsonConfirmation c) = some c := by
  have e : confirmationIn (jsonConfirmation c) = match asStr (.str c.txId), asU64 (.nat c.eventIndex),
      asStr (.str c.destinationAddress), asStr (.str c.destinationChain), asStr (.str c.sourceAddress),
      asHex (jsonHex c.payloadHash) with
    | some tx, some i, some da, some dc, some sa, some h => some ⟨tx, i, da, dc, sa, h⟩
    | _, _, _, _, _, _ => none := rfl
  rw [e, asHex_jsonHex h.bytes]
  rfl

theorem workerSetIn_json (tx : Str) (i : Nat) {o : Operators} (h : OperatorsFit o) :
    workerSetIn (jsonWorkerSet tx i o) = some o := by
  have e : workerSetIn (jsonWorkerSet tx i o) = asOperators (jsonOperators o) := rfl
  rw [e, asOperators_json h]

theorem pollNotice_messages (l : List (Str × Str)) : pollNoticeOf finite "wasm-messages_poll_started".toList l =
    (((lastWith "poll_id".toList l).bind (fromStr finite)).bind (asUint u64Max)).bind (fun i =>
      (((lastWith "messages".toList l).bind (fromStr finite)).bind (asVec confirmationIn)).bind (fun ms =>
        some (.messages i ms))) := rfl

theorem pollNotice_set (l : List (Str × Str)) : pollNoticeOf finite "wasm-worker_set_poll_started".toList l =
    (((lastWith "poll_id".toList l).bind (fromStr finite)).bind (asUint u64Max)).bind (fun i =>
      (((lastWith "worker_set".toList l).bind (fromStr finite)).bind workerSetIn).bind (fun o =>
        some (.workerSet i o))) := rfl

theorem pollNotice_ended (l : List (Str × Str)) : pollNoticeOf finite "wasm-poll_ended".toList l =
    (((lastWith "poll_id".toList l).bind (fromStr finite)).bind (asUint u64Max)).bind (fun i =>
      (((lastWith "results".toList l).bind (fromStr finite)).bind (asVec (fun j => asOption asVote (some j)))).bind
        (fun rs => some (.ended i rs))) := rfl

theorem pollNotice_voted (l : List (Str × Str)) : pollNoticeOf finite "wasm-voted".toList l = none := rfl

theorem uint_read (finite : Str → Bool) (n : Nat) : fromStr finite (jsonUint n).render = some (jsonUint n) :=
  fromStr_render finite (j := jsonUint n) (by simp [jsonUint, Json.Fits])

/-- a result, in an event -/
def jsonResult (r : Option Vote) : Json :=
  match r with
  | none => .null
  | some v => .str (voteName v)

theorem poll_notice_read (V : Addr) {ev : VV.Event} (h : PollNoticeFits ev) :
    (noticed T V (publishVerifier T V ev)).bind (fun x => pollNoticeOf finite x.1 x.2) = pollNoticeFor ev := by
  unfold publishVerifier
  rw [noticed_self _ _ (verifier_address V ev), Option.bind_some]
  obtain ⟨h, hn⟩ := h
  cases ev with
  | messagesPollStarted confs pm =>
    obtain ⟨h1, h2⟩ := h
    have f1 : lastWith "poll_id".toList (("_contract_address".toList, T.text V) ::
      verifierAttributes T (.messagesPollStarted confs pm)) = some (jsonUint pm.pollId).render := rfl
    have f2 : lastWith "messages".toList (("_contract_address".toList, T.text V) ::
      verifierAttributes T (.messagesPollStarted confs pm)) = some (Json.arr (confs.map jsonConfirmation)).render := rfl
    refine (pollNotice_messages _).trans ?_
    rw [f1, f2]
    simp only [Option.bind_some, uint_read finite pm.pollId,
      fromStr_render finite (fits_arr (fun c hc => fits_confirmation (h2 c hc).eventIndex) (by omega) :
        (Json.arr (confs.map jsonConfirmation)).Fits 128),
      asUint_jsonUint h1.pollId, asVec_map (fun c hc => confirmationIn_json (h2 c hc))]
    rfl
  | workerSetPollStarted tx i o pm =>
    obtain ⟨h1, h2, h3⟩ := h
    have f1 : lastWith "poll_id".toList (("_contract_address".toList, T.text V) ::
      verifierAttributes T (.workerSetPollStarted tx i o pm)) = some (jsonUint pm.pollId).render := rfl
    have f2 : lastWith "worker_set".toList (("_contract_address".toList, T.text V) ::
      verifierAttributes T (.workerSetPollStarted tx i o pm)) = some (jsonWorkerSet tx i o).render := rfl
    refine (pollNotice_set _).trans ?_
    rw [f1, f2]
    simp only [Option.bind_some, uint_read finite pm.pollId,
      fromStr_render finite (fits_workerSet tx h2 o), asUint_jsonUint h1.pollId, workerSetIn_json tx i h3]
    rfl
  | voted id a => exact pollNotice_voted _
  | pollEnded id rs =>
    have f1 : lastWith "poll_id".toList (("_contract_address".toList, T.text V) ::
      verifierAttributes T (.pollEnded id rs)) = some (jsonUint id).render := rfl
    have f2 : lastWith "results".toList (("_contract_address".toList, T.text V) ::
      verifierAttributes T (.pollEnded id rs)) = some (Json.arr (rs.map jsonResult)).render := rfl
    have hr : (Json.arr (rs.map jsonResult)).Fits 128 := by
      refine fits_arr (d := 127) (fun r _ => ?_) (by omega)
      cases r <;> simp [jsonResult, Json.Fits]
    have hv : asVec (fun j => asOption asVote (some j)) (.arr (rs.map jsonResult)) = some rs := by
      refine asVec_map (fun r _ => ?_)
      cases r with
      | none => rfl
      | some v => cases v <;> rfl
    refine (pollNotice_ended _).trans ?_
    rw [f1, f2]
    simp only [Option.bind_some, uint_read finite id,
      fromStr_render finite hr, asUint_jsonUint (hn id rs rfl), hv]
    rfl

/-- what a call of a verifier tells of polls -/
def pollEvents : Act → List PollNotice
  | .verifier _ r => r.event.toList.filterMap pollNoticeFor
  | _ => []

/-- the events of the verifier at `V` are read back -/
theorem verifier_news (hT : T.Faithful) (V : Addr) (l : List Entry)
    (h : ∀ e ∈ l, e.p.target = V → ∃ c r, e.act = .verifier c r ∧ ∀ ev, r.event = some ev → PollNoticeFits ev) :
    (eventStream T l).filterMap (fun e => (noticed T V e).bind (fun x => pollNoticeOf finite x.1 x.2)) =
      (Chain.actsAt V l).flatMap pollEvents := by
  refine stream_read hT V (pollNoticeOf finite) pollEvents l (fun e he ht => ?_)
  obtain ⟨c, r, ha, hf⟩ := h e he ht
  rw [ha]
  simp only [actEvents, pollEvents, List.filterMap_map]
  cases hr : r.event with
  | none => rfl
  | some ev =>
    have := poll_notice_read (finite := finite) (T := T) V (hf ev hr)
    simp only [Option.toList_some, List.filterMap_cons, List.filterMap_nil, Function.comp_apply]
    rw [this]

/-! ### Storage -/

/-- what is known after the calls of a log -/
def heardPolls (log : List (VV.Call × VV.Resp)) : PollsKnown :=
  (log.flatMap (fun e => e.2.event.toList.filterMap pollNoticeFor)).foldl PollsKnown.hear .nothing

theorem heardPolls_snoc (log : List (VV.Call × VV.Resp)) (c : VV.Call) (r : VV.Resp) :
    heardPolls (log ++ [(c, r)]) = match r.event.bind pollNoticeFor with
      | none => heardPolls log
      | some n => (heardPolls log).hear n := by
  unfold heardPolls
  rw [List.flatMap_append, List.foldl_append]
  cases hr : r.event with
  | none => simp [hr]
  | some ev =>
    cases hp : pollNoticeFor ev with
    | none => simp [hr, hp]
    | some n => simp [hr, hp]

theorem verifier_history_ok {H : VV.Hashes} {cfg : VV.Config} {cs : List VV.Call} {c : VV.Call} {s' : VV.State} {r : VV.Resp}
    (h : VV.exec H (VV.stateAfter H cfg cs) c = .ok (s', r)) :
    VV.history H cfg (cs ++ [c]) = VV.history H cfg cs ++ [(c, r)] ∧ VV.stateAfter H cfg (cs ++ [c]) = s' := by
  constructor
  · unfold VV.history
    rw [outs_append, outs_cons_ok (VV.exec H) h]
    simp [outs]
  · unfold VV.stateAfter at h ⊢
    rw [runCalls_append, runCalls_cons, h]
    rfl

theorem verifier_history_error {H : VV.Hashes} {cfg : VV.Config} {cs : List VV.Call} {c : VV.Call} {e : VV.Err}
    (h : VV.exec H (VV.stateAfter H cfg cs) c = .error e) :
    VV.history H cfg (cs ++ [c]) = VV.history H cfg cs ∧ VV.stateAfter H cfg (cs ++ [c]) = VV.stateAfter H cfg cs := by
  constructor
  · unfold VV.history
    rw [outs_append, outs_cons_error (VV.exec H) h]
    simp [outs]
  · unfold VV.stateAfter at h ⊢
    rw [runCalls_append, runCalls_cons, h]
    rfl

/-- the results known are those of the polls that were ended -/
theorem results_heard (H : VV.Hashes) (cfg : VV.Config) (hv : cfg.Valid) (cs : List VV.Call) (ho : VV.InBlockOrder cs) :
    (∀ id, (heardPolls (VV.history H cfg cs)).results id =
      ((VV.stateAfter H cfg cs).polls id).bind (fun sp =>
        if sp.poll.status = .finished then some sp.poll.state.results else none)) ∧
    ∀ id sp, (VV.stateAfter H cfg cs).polls id = some sp → sp.poll.status = .finished →
      ∃ c ∈ cs, sp.poll.expiresAt ≤ c.height := by
  induction cs using List.reverseRecOn with
  | nil =>
    refine ⟨fun id => ?_, ?_⟩
    · simp [heardPolls, VV.history, outs, VV.stateAfter, runCalls, VV.init, PollsKnown.nothing]
    · intro id sp h; simp [VV.stateAfter, runCalls, VV.init] at h
  | append_singleton cs c ih =>
    unfold VV.InBlockOrder at ho
    rw [List.map_append, List.pairwise_append] at ho
    obtain ⟨ih1, ih2⟩ := ih ho.1
    have hlast : ∀ d ∈ cs, d.height ≤ c.height := fun d hd =>
      ho.2.2 _ (List.mem_map_of_mem (f := VV.Call.height) hd) _ (by simp)
    have hi := VV.inv_reachable H hv cs
    cases hx : VV.exec H (VV.stateAfter H cfg cs) c with
    | error e =>
      obtain ⟨h1, h2⟩ := verifier_history_error hx
      rw [h1, h2]
      refine ⟨ih1, fun id sp h hf => ?_⟩
      obtain ⟨d, hd, h⟩ := ih2 id sp h hf
      exact ⟨d, List.mem_append_left _ hd, h⟩
    | ok y =>
      obtain ⟨s', r⟩ := y
      obtain ⟨h1, h2⟩ := verifier_history_ok hx
      rw [h1, h2, heardPolls_snoc]
      have hstep := VV.exec_pollStep hx
      refine ⟨?_, ?_⟩
      · have hx' := hx
        unfold VV.exec at hx'
        split at hx'
        · obtain ⟨_, _, _, _, _, _, _, _, ⟨_, rfl, he⟩ | ⟨_, ws, snap, confs, _, _, _, he, rfl⟩⟩ := VV.verifyMessages_ok hx'
          · intro id; rw [he]; exact ih1 id
          · intro id
            rw [he]
            simp only [Option.bind_some, pollNoticeFor, PollsKnown.hear]
            rw [ih1 id]
            by_cases hid : id = (VV.stateAfter H cfg cs).lastPollId + 1
            · rw [hid, KV.set_self]
              have : (VV.stateAfter H cfg cs).polls ((VV.stateAfter H cfg cs).lastPollId + 1) = none := by
                cases hp : (VV.stateAfter H cfg cs).polls ((VV.stateAfter H cfg cs).lastPollId + 1) with
                | none => rfl
                | some sp => have := (hi.bound _ sp hp).2; omega
              rw [this]
              rfl
            · rw [KV.set_ne _ _ hid]
        · obtain ⟨sp, p, g1, g2, rfl, rfl⟩ := VV.vote_ok hx'
          rename_i id vs hmsg
          intro id'
          simp only [Option.bind_some, pollNoticeFor]
          rw [ih1 id']
          by_cases hid : id' = id
          · subst hid
            rw [KV.set_self, g1]
            obtain ⟨part, k1, k2, k3, k4, rfl⟩ := Std.Poll.castVote_ok g2
            simp only [Option.bind_some]
            by_cases hf : sp.poll.status = .finished
            · exfalso
              obtain ⟨d, hd, hle⟩ := ih2 id' sp g1 hf
              have := hlast d hd
              omega
            · rw [if_neg hf, if_neg hf]
          · rw [KV.set_ne _ _ hid]
        · obtain ⟨sp, p, g1, g2, rfl, rfl⟩ := VV.endPoll_ok hx'
          rename_i id hmsg
          intro id'
          simp only [Option.bind_some, pollNoticeFor, PollsKnown.hear]
          obtain ⟨k1, k2, rfl⟩ := Std.Poll.finish_ok g2
          have hpid : sp.poll.pollId = id := (hi.polls id sp g1).pid
          have hpid' : (Std.Poll.state { sp.poll with status := .finished }).pollId = id := hpid
          rw [hpid']
          by_cases hid : id' = id
          · subst hid
            rw [KV.set_self, KV.set_self]
            rfl
          · rw [KV.set_ne _ _ hid, KV.set_ne _ _ hid]
            exact ih1 id'
        · obtain ⟨_, ws, snap, tx, n, _, _, _, rfl, rfl⟩ := VV.verifyWorkerSet_ok hx'
          intro id
          simp only [Option.bind_some, pollNoticeFor, PollsKnown.hear]
          rw [ih1 id]
          by_cases hid : id = (VV.stateAfter H cfg cs).lastPollId + 1
          · rw [hid, KV.set_self]
            have : (VV.stateAfter H cfg cs).polls ((VV.stateAfter H cfg cs).lastPollId + 1) = none := by
              cases hp : (VV.stateAfter H cfg cs).polls ((VV.stateAfter H cfg cs).lastPollId + 1) with
              | none => rfl
              | some sp => have := (hi.bound _ sp hp).2; omega
            rw [this]
            rfl
          · rw [KV.set_ne _ _ hid]
      · intro id sp' h hf
        cases hp : (VV.stateAfter H cfg cs).polls id with
        | some sp =>
          rcases VV.finished_cause hstep hi hp h hf with hfin | hle
          · obtain ⟨d, hd, hle⟩ := ih2 id sp hp hfin
            have := VV.finished_fixed hstep hi hp hfin (Nat.le_trans hle (hlast d hd))
            rw [this] at h
            simp only [Option.some.injEq] at h
            subst h
            exact ⟨d, List.mem_append_left _ hd, hle⟩
          · obtain ⟨sp'', h3, _, _, _, h4, _⟩ := VV.poll_persists hstep hi hp
            rw [h3] at h
            simp only [Option.some.injEq] at h
            subst h
            exact ⟨c, by simp, by rw [h4]; exact hle⟩
        | none =>
          exfalso
          cases hstep with
          | same e1 => rw [e1, hp] at h; simp at h
          | opened k ws snap n _ _ e1 =>
            rw [e1, KV.set_apply] at h
            split at h
            · simp only [Option.some.injEq] at h
              subst h
              simp [Std.Poll.new] at hf
            · rw [hp] at h; simp at h
          | op id' sp0 o p hsp _ e1 =>
            rw [e1, KV.set_apply] at h
            split at h
            · rename_i hid
              rw [hid, hsp] at hp
              simp at hp
            · rw [hp] at h; simp at h

/-- the places noted and the places stored agree about a message, if no other has its hash or looks like it in an event -/
theorem notePlaces_save {H : VV.Hashes} {m : Message} {cf : VV.TxConfirmation} (hcf : VV.confirmationOf m = .ok cf) (id : Nat) :
    ∀ (ms : List Message) (confs : List VV.TxConfirmation) (i : Nat) (kv : KV VV.TxConfirmation (Nat × Nat))
      (st : KV Router.Digest (VV.PollContent Message)), mapE VV.confirmationOf ms = .ok confs →
      (∀ m' ∈ ms, m'.hash H.msg = m.hash H.msg ∨ VV.confirmationOf m' = .ok cf → m' = m) →
      kv cf = (st (m.hash H.msg)).map (fun pc => (pc.pollId, pc.index)) →
      notePlaces id i confs kv cf =
        (VV.saveMessages H id i ms st (m.hash H.msg)).map (fun pc => (pc.pollId, pc.index)) := by
  intro ms
  induction ms with
  | nil =>
    intro confs i kv st h _ h0
    simp only [mapE, Except.ok.injEq] at h
    subst h
    exact h0
  | cons x t ih =>
    intro confs i kv st h hu h0
    obtain ⟨y, ys, h1, h2, rfl⟩ := mapE_cons_ok.mp h
    unfold notePlaces VV.saveMessages
    refine ih ys (i + 1) _ _ h2 (fun m' hm' => hu m' (List.mem_cons_of_mem _ hm')) ?_
    rw [KV.set_apply, KV.set_apply]
    by_cases hx : x = m
    · subst hx
      rw [h1] at hcf
      simp only [Except.ok.injEq] at hcf
      subst hcf
      simp
    · have n1 : cf ≠ y := fun e => hx (hu x (List.mem_cons_self ..) (Or.inr (by rw [h1, e])))
      have n2 : m.hash H.msg ≠ x.hash H.msg := fun e => hx (hu x (List.mem_cons_self ..) (Or.inl e.symm))
      rw [if_neg n1, if_neg n2]
      exact h0

/-- the last poll about a message is known -/
theorem messages_heard (H : VV.Hashes) (cfg : VV.Config) {m : Message} {cf : VV.TxConfirmation}
    (hcf : VV.confirmationOf m = .ok cf) (cs : List VV.Call)
    (hu : ∀ x ∈ VV.history H cfg cs, ∀ ms, x.1.msg = .verifyMessages ms → ∀ m' ∈ ms,
      m'.hash H.msg = m.hash H.msg ∨ VV.confirmationOf m' = .ok cf → m' = m) :
    (heardPolls (VV.history H cfg cs)).messages cf =
      ((VV.stateAfter H cfg cs).pollMessages (m.hash H.msg)).map (fun pc => (pc.pollId, pc.index)) := by
  induction cs using List.reverseRecOn with
  | nil => simp [heardPolls, VV.history, outs, VV.stateAfter, runCalls, VV.init, PollsKnown.nothing]
  | append_singleton cs c ih =>
    cases hx : VV.exec H (VV.stateAfter H cfg cs) c with
    | error e =>
      obtain ⟨h1, h2⟩ := verifier_history_error hx
      rw [h1] at hu
      rw [h1, h2]
      exact ih hu
    | ok y =>
      obtain ⟨s', r⟩ := y
      obtain ⟨h1, h2⟩ := verifier_history_ok hx
      rw [h1] at hu
      have ih := ih (fun x hx => hu x (List.mem_append_left _ hx))
      have hu := hu (c, r) (by simp)
      rw [h1, h2, heardPolls_snoc]
      unfold VV.exec at hx
      split at hx
      · rename_i ms hmsg
        obtain ⟨_, _, _, _, _, _, _, _, ⟨_, rfl, he⟩ | ⟨_, ws, snap, confs, _, _, hc, he, rfl⟩⟩ := VV.verifyMessages_ok hx
        · rw [he]; exact ih
        · rw [he]
          exact notePlaces_save hcf _ _ confs 0 _ _ hc
            (fun m' hm' => hu ms hmsg m' (VV.mem_pending.mp hm').1) ih
      · obtain ⟨sp, p, g1, g2, rfl, rfl⟩ := VV.vote_ok hx
        exact ih
      · obtain ⟨sp, p, g1, g2, rfl, rfl⟩ := VV.endPoll_ok hx
        exact ih
      · obtain ⟨_, ws, snap, tx, n, _, _, _, rfl, rfl⟩ := VV.verifyWorkerSet_ok hx
        exact ih

/-- the last poll about a worker set is known -/
theorem sets_heard (H : VV.Hashes) (cfg : VV.Config) {o : Operators} (cs : List VV.Call)
    (hu : ∀ x ∈ VV.history H cfg cs, ∀ mid o', x.1.msg = .verifyWorkerSet mid o' → H.ops o' = H.ops o → o' = o) :
    (heardPolls (VV.history H cfg cs)).workerSets o =
      ((VV.stateAfter H cfg cs).pollWorkerSets (H.ops o)).map (fun pc => pc.pollId) := by
  induction cs using List.reverseRecOn with
  | nil => simp [heardPolls, VV.history, outs, VV.stateAfter, runCalls, VV.init, PollsKnown.nothing]
  | append_singleton cs c ih =>
    cases hx : VV.exec H (VV.stateAfter H cfg cs) c with
    | error e =>
      obtain ⟨h1, h2⟩ := verifier_history_error hx
      rw [h1] at hu
      rw [h1, h2]
      exact ih hu
    | ok y =>
      obtain ⟨s', r⟩ := y
      obtain ⟨h1, h2⟩ := verifier_history_ok hx
      rw [h1] at hu
      have ih := ih (fun x hx => hu x (List.mem_append_left _ hx))
      have hu := hu (c, r) (by simp)
      rw [h1, h2, heardPolls_snoc]
      unfold VV.exec at hx
      split at hx
      · rename_i ms hmsg
        obtain ⟨_, _, _, _, _, _, _, _, ⟨_, rfl, he⟩ | ⟨_, ws, snap, confs, _, _, hc, he, rfl⟩⟩ := VV.verifyMessages_ok hx
        · rw [he]; exact ih
        · rw [he]; exact ih
      · obtain ⟨sp, p, g1, g2, rfl, rfl⟩ := VV.vote_ok hx
        exact ih
      · obtain ⟨sp, p, g1, g2, rfl, rfl⟩ := VV.endPoll_ok hx
        exact ih
      · rename_i mid o' hmsg
        obtain ⟨_, ws, snap, tx, n, _, _, _, rfl, rfl⟩ := VV.verifyWorkerSet_ok hx
        simp only [Option.bind_some, pollNoticeFor, PollsKnown.hear]
        rw [KV.set_apply, KV.set_apply]
        by_cases ho : o = o'
        · subst ho
          simp [VV.metaOf]
        · have : H.ops o ≠ H.ops o' := fun e => ho (hu mid o' hmsg e.symm).symm
          rw [if_neg ho, if_neg this]
          exact ih

end Amp.Wire
