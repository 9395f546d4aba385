import Verif.Ampd.SuiProps
import Verif.Ampd.Wire
import Verif.VV.Props

/-! # C70: the ballots of the daemon -/

namespace Amp.Ampd

open Amp.Std (Vote)
open Amp.Encoding (Bytes)
open Amp.Router (ChainName Lowering)

/-- success of a handler -/
def Outcome.succeeded (o : Outcome) : Prop := o.result = .ok ()

theorem broadcastTx_succeeded (acc : Bool) (t : ExecTx) : (broadcastTx acc t).succeeded ↔ acc = true := by
  unfold Outcome.succeeded broadcastTx
  cases acc <;> simp

namespace Evm

variable {V D : Type}

theorem handleMessages_not_concerned {L : Lowering} {decodeLog : D → Option GatewayEvent}
    {deser : V → Option (PollStarted (List Message))} {H : Handler} {E : Env D} {e : Event (Abci V)}
    (h : ∀ p, ¬ Concerns "wasm-messages_poll_started".toList deser H E.latestBlock e p)
    (hu : ¬ Undecodable "wasm-messages_poll_started".toList deser e) :
    handleMessages L decodeLog deser H E e = .ignored := by
  unfold handleMessages
  cases ht : tryFrom "wasm-messages_poll_started".toList deser e with
  | mismatch => rfl
  | malformed => exact absurd (tryFrom_malformed.mp ht) hu
  | ok p =>
    simp only
    by_cases h1 : H.votingVerifier ≠ p.contract
    · rw [if_pos h1]
    rw [if_neg h1]
    by_cases h2 : (!H.chain.is p.sourceChain) = true
    · rw [if_pos h2]
    rw [if_neg h2]
    by_cases h3 : H.worker ∉ p.participants
    · rw [if_pos h3]
    rw [if_neg h3]
    by_cases h4 : E.latestBlock ≥ p.expiresAt
    · rw [if_pos h4]
    exfalso
    refine h p ⟨tryFrom_ok.mp ht, ?_, ?_, ?_, by omega⟩
    · exact (Classical.not_not.mp h1).symm
    · simp only [Chain.is, eqIgnoreAsciiCase, Bool.not_eq_true', decide_eq_false_iff_not,
        Classical.not_not] at h2
      exact h2.symm
    · simpa using h3

theorem handleWorkerSet_not_concerned {decodeLog : D → Option GatewayEvent}
    {deser : V → Option (PollStarted WorkerSet)} {H : Handler} {E : Env D} {e : Event (Abci V)}
    (h : ∀ p, ¬ Concerns "wasm-worker_set_poll_started".toList deser H E.latestBlock e p)
    (hu : ¬ Undecodable "wasm-worker_set_poll_started".toList deser e) :
    handleWorkerSet decodeLog deser H E e = .ignored := by
  unfold handleWorkerSet
  cases ht : tryFrom "wasm-worker_set_poll_started".toList deser e with
  | mismatch => rfl
  | malformed => exact absurd (tryFrom_malformed.mp ht) hu
  | ok p =>
    simp only
    by_cases h1 : H.votingVerifier ≠ p.contract
    · rw [if_pos h1]
    rw [if_neg h1]
    by_cases h2 : (!H.chain.is p.sourceChain) = true
    · rw [if_pos h2]
    rw [if_neg h2]
    by_cases h3 : H.worker ∉ p.participants
    · rw [if_pos h3]
    rw [if_neg h3]
    by_cases h4 : E.latestBlock ≥ p.expiresAt
    · rw [if_pos h4]
    exfalso
    refine h p ⟨tryFrom_ok.mp ht, ?_, ?_, ?_, by omega⟩
    · exact (Classical.not_not.mp h1).symm
    · simp only [Chain.is, eqIgnoreAsciiCase, Bool.not_eq_true', decide_eq_false_iff_not,
        Classical.not_not] at h2
      exact h2.symm
    · simpa using h3

/-- One ballot: for an event that starts a poll of its verifier about its chain, in which the worker takes
part and which is not expired, the handler sends exactly one transaction if the node reports a finalised
height - in the worker's name, to the verifier, for that poll, with one vote per message, each
`SucceededOnChain` or `NotFound` - and succeeds if the broadcaster takes it; if the node does not report
one it sends nothing and fails. -/
theorem C70_evm_messages (L : Lowering) (decodeLog : D → Option GatewayEvent)
    (deser : V → Option (PollStarted (List Message))) (H : Handler) (E : Env D) (e : Event (Abci V))
    (hb : Bounded E.node) (p : PollStarted (List Message))
    (hc : Concerns "wasm-messages_poll_started".toList deser H E.latestBlock e p) :
    (Answers H.chain E.node p.confirmationHeight →
      ∃ votes : List Vote,
        (handleMessages L decodeLog deser H E e).sent = [⟨H.worker, H.votingVerifier, .vote p.pollId votes⟩] ∧
        votes.length = p.content.length ∧ (∀ v ∈ votes, v = .succeededOnChain ∨ v = .notFound) ∧
        ((handleMessages L decodeLog deser H E e).succeeded ↔ E.accepted = true)) ∧
    (¬ Answers H.chain E.node p.confirmationHeight →
      (handleMessages L decodeLog deser H E e).sent = [] ∧
        ¬ (handleMessages L decodeLog deser H E e).succeeded) := by
  constructor
  · intro ha
    obtain ⟨f, hf⟩ := (finalizedHeight_ok hb).mpr ha
    rw [handleMessages_concerned hc hf]
    refine ⟨_, rfl, by simp, ?_, broadcastTx_succeeded _ _⟩
    intro v hv
    obtain ⟨m, _, rfl⟩ := List.mem_map.mp hv
    exact voteFor_other
  · intro ha
    cases hf : finalizedHeight H.chain E.node p.confirmationHeight with
    | ok f => exact absurd ((finalizedHeight_ok hb).mp ⟨f, hf⟩) ha
    | error x =>
      obtain ⟨h1, h2, h3, h4, h5⟩ := hc
      unfold handleMessages
      rw [tryFrom_ok.mpr h1]
      simp only
      rw [if_neg (by simp [h2]), if_neg (by simp [Chain.is, eqIgnoreAsciiCase, h3]),
        if_neg (by simpa using h4), if_neg (by omega)]
      unfold finalizedReceipts
      rw [hf]
      simp [Outcome.failed, Outcome.succeeded]

/-- No other ballots: for any other event the handler sends nothing, and succeeds unless the event has the
type it waits for but cannot be decoded. -/
theorem C70_evm_messages_else (L : Lowering) (decodeLog : D → Option GatewayEvent)
    (deser : V → Option (PollStarted (List Message))) (H : Handler) (E : Env D) (e : Event (Abci V))
    (hc : ∀ p, ¬ Concerns "wasm-messages_poll_started".toList deser H E.latestBlock e p) :
    (handleMessages L decodeLog deser H E e).sent = [] ∧
      ((handleMessages L decodeLog deser H E e).succeeded ↔
        ¬ Undecodable "wasm-messages_poll_started".toList deser e) := by
  by_cases hu : Undecodable "wasm-messages_poll_started".toList deser e
  · have ht := tryFrom_malformed.mpr hu
    unfold handleMessages
    rw [ht]
    exact ⟨rfl, fun h => by simp [Outcome.succeeded, Outcome.failed] at h, fun h => absurd hu h⟩
  · rw [handleMessages_not_concerned hc hu]
    exact ⟨rfl, fun _ => hu, fun _ => rfl⟩

/-- The same for worker sets: one ballot with one vote, if the node reports a finalised height and answers the
request for the receipt. -/
theorem C70_evm_worker_set (decodeLog : D → Option GatewayEvent)
    (deser : V → Option (PollStarted WorkerSet)) (H : Handler) (E : Env D) (e : Event (Abci V))
    (hb : Bounded E.node) (p : PollStarted WorkerSet)
    (hsize : ∃ data, Encoding.Abi.ethabiEncode [
      .array (p.content.operators.map (fun o => .address o.1)),
      .array (p.content.operators.map (fun o => .uint o.2)),
      .elem (.uint p.content.threshold)] = .ok data)
    (hc : Concerns "wasm-worker_set_poll_started".toList deser H E.latestBlock e p) :
    (Answers H.chain E.node p.confirmationHeight ∧ (E.node.receipt p.content.txId).isSome →
      ∃ v : Vote,
        (handleWorkerSet decodeLog deser H E e).sent = [⟨H.worker, H.votingVerifier, .vote p.pollId [v]⟩] ∧
        (v = .succeededOnChain ∨ v = .notFound) ∧
        ((handleWorkerSet decodeLog deser H E e).succeeded ↔ E.accepted = true)) ∧
    (¬ (Answers H.chain E.node p.confirmationHeight ∧ (E.node.receipt p.content.txId).isSome) →
      (handleWorkerSet decodeLog deser H E e).sent = [] ∧
        ¬ (handleWorkerSet decodeLog deser H E e).succeeded) := by
  constructor
  · rintro ⟨ha, hr⟩
    obtain ⟨f, hf⟩ := (finalizedHeight_ok hb).mpr ha
    obtain ⟨rr, hrr⟩ := Option.isSome_iff_exists.mp hr
    have hrec : ∃ r, finalizedReceipt H.chain E.node p.content.txId p.confirmationHeight = .ok r := by
      unfold finalizedReceipt
      rw [hf]
      simp only [hrr]
      cases rr <;> exact ⟨_, rfl⟩
    obtain ⟨r, hrec⟩ := hrec
    have hv : ∃ v, workerSetVote decodeLog p.sourceGateway r p.content = .ok v ∧
        (v = .succeededOnChain ∨ v = .notFound) := by
      unfold workerSetVote
      cases r with
      | none => exact ⟨_, rfl, Or.inr rfl⟩
      | some r =>
        simp only
        unfold verifyWorkerSet
        split
        · exact ⟨_, rfl, Or.inr rfl⟩
        · rename_i l ev _
          split
          · have : ∃ x, eventIsWorkerSet l ev p.content = .ok x := by
              unfold eventIsWorkerSet
              cases ev with
              | contractCall _ _ _ _ => exact ⟨_, rfl⟩
              | other => exact ⟨_, rfl⟩
              | operatorshipTransferred d =>
                simp only
                split
                · obtain ⟨data, hdata⟩ := hsize
                  have hod : operatorsData p.content = .ok data := hdata
                  rw [hod]
                  exact ⟨_, rfl⟩
                · exact ⟨_, rfl⟩
            obtain ⟨x, hx⟩ := this
            rw [hx]
            cases x with
            | true => exact ⟨_, rfl, Or.inl rfl⟩
            | false => exact ⟨_, rfl, Or.inr rfl⟩
          · exact ⟨_, rfl, Or.inr rfl⟩
    obtain ⟨v, hv1, hv2⟩ := hv
    rw [handleWorkerSet_concerned hc hrec hv1]
    exact ⟨v, rfl, hv2, broadcastTx_succeeded _ _⟩
  · intro hn
    have hrec : ∃ x, finalizedReceipt H.chain E.node p.content.txId p.confirmationHeight = .error x := by
      unfold finalizedReceipt
      cases hf : finalizedHeight H.chain E.node p.confirmationHeight with
      | error x => exact ⟨_, rfl⟩
      | ok f =>
        simp only
        cases hr : E.node.receipt p.content.txId with
        | none => exact ⟨_, rfl⟩
        | some x => exact absurd ⟨(finalizedHeight_ok hb).mp ⟨f, hf⟩, by rw [hr]; rfl⟩ hn
    obtain ⟨x, hx⟩ := hrec
    obtain ⟨h1, h2, h3, h4, h5⟩ := hc
    unfold handleWorkerSet
    rw [tryFrom_ok.mpr h1]
    simp only
    rw [if_neg (by simp [h2]), if_neg (by simp [Chain.is, eqIgnoreAsciiCase, h3]),
      if_neg (by simpa using h4), if_neg (by omega), hx]
    simp [Outcome.failed, Outcome.succeeded]

theorem C70_evm_worker_set_else (decodeLog : D → Option GatewayEvent)
    (deser : V → Option (PollStarted WorkerSet)) (H : Handler) (E : Env D) (e : Event (Abci V))
    (hc : ∀ p, ¬ Concerns "wasm-worker_set_poll_started".toList deser H E.latestBlock e p) :
    (handleWorkerSet decodeLog deser H E e).sent = [] ∧
      ((handleWorkerSet decodeLog deser H E e).succeeded ↔
        ¬ Undecodable "wasm-worker_set_poll_started".toList deser e) := by
  by_cases hu : Undecodable "wasm-worker_set_poll_started".toList deser e
  · have ht := tryFrom_malformed.mpr hu
    unfold handleWorkerSet
    rw [ht]
    exact ⟨rfl, fun h => by simp [Outcome.succeeded, Outcome.failed] at h, fun h => absurd hu h⟩
  · rw [handleWorkerSet_not_concerned hc hu]
    exact ⟨rfl, fun _ => hu, fun _ => rfl⟩

/-- the concrete case of `EvmProps`: concerned, and the node answers -/
example : Concerns "wasm-messages_poll_started".toList (fun _ => some exPoll) exHandler exEnv.latestBlock exEvent
    exPoll ∧ Answers exHandler.chain exEnv.node exPoll.confirmationHeight := by
  refine ⟨⟨⟨_, rfl, rfl, rfl⟩, rfl, by decide, by decide, by decide⟩, ?_⟩
  exact ⟨90, rfl⟩

/-- if the worker is not a participant nothing is sent -/
example : (handleMessages Router.asciiLower some (fun _ => some exPoll) { exHandler with worker := 3 } exEnv
    exEvent).sent = [] := by decide +kernel

/-- nor at the expiry height -/
example : (handleMessages Router.asciiLower some (fun _ => some exPoll) exHandler { exEnv with latestBlock := 50 }
    exEvent).sent = [] := by decide +kernel

end Evm

namespace Sui

variable {V J : Type}

theorem handleMessages_not_concerned {L : Lowering} {P : Json J}
    {deser : V → Option (PollStarted (List Message))} {H : Handler} {E : Env J} {e : Event (Abci V)}
    (h : ∀ p, ¬ Concerns "wasm-messages_poll_started".toList deser H E.latestBlock e p)
    (hu : ¬ Undecodable "wasm-messages_poll_started".toList deser e) :
    handleMessages L P deser H E e = .ignored := by
  unfold handleMessages
  cases ht : tryFrom "wasm-messages_poll_started".toList deser e with
  | mismatch => rfl
  | malformed => exact absurd (tryFrom_malformed.mp ht) hu
  | ok p =>
    simp only
    by_cases h1 : H.votingVerifier ≠ p.contract
    · rw [if_pos h1]
    rw [if_neg h1]
    by_cases h3 : H.worker ∉ p.participants
    · rw [if_pos h3]
    rw [if_neg h3]
    by_cases h4 : E.latestBlock ≥ p.expiresAt
    · rw [if_pos h4]
    exact absurd ⟨tryFrom_ok.mp ht, (Classical.not_not.mp h1).symm, by simpa using h3, by omega⟩ (h p)

theorem handleWorkerSet_not_concerned {P : Json J} {deser : V → Option (PollStarted WorkerSet)} {H : Handler}
    {E : Env J} {e : Event (Abci V)}
    (h : ∀ p, ¬ Concerns "wasm-worker_set_poll_started".toList deser H E.latestBlock e p)
    (hu : ¬ Undecodable "wasm-worker_set_poll_started".toList deser e) :
    handleWorkerSet P deser H E e = .ignored := by
  unfold handleWorkerSet
  cases ht : tryFrom "wasm-worker_set_poll_started".toList deser e with
  | mismatch => rfl
  | malformed => exact absurd (tryFrom_malformed.mp ht) hu
  | ok p =>
    simp only
    by_cases h1 : H.votingVerifier ≠ p.contract
    · rw [if_pos h1]
    rw [if_neg h1]
    by_cases h3 : H.worker ∉ p.participants
    · rw [if_pos h3]
    rw [if_neg h3]
    by_cases h4 : E.latestBlock ≥ p.expiresAt
    · rw [if_pos h4]
    exact absurd ⟨tryFrom_ok.mp ht, (Classical.not_not.mp h1).symm, by simpa using h3, by omega⟩ (h p)

/-- One ballot, for Sui: provided the node answers. -/
theorem C70_sui_messages (L : Lowering) (P : Json J) (deser : V → Option (PollStarted (List Message)))
    (H : Handler) (E : Env J) (e : Event (Abci V)) (p : PollStarted (List Message))
    (hc : Concerns "wasm-messages_poll_started".toList deser H E.latestBlock e p) :
    ((E.node.multiGet (E.order (p.content.map Message.txId))).isSome →
      ∃ votes : List Vote,
        (handleMessages L P deser H E e).sent = [⟨H.worker, H.votingVerifier, .vote p.pollId votes⟩] ∧
        votes.length = p.content.length ∧ (∀ v ∈ votes, v = .succeededOnChain ∨ v = .notFound) ∧
        ((handleMessages L P deser H E e).succeeded ↔ E.accepted = true)) ∧
    ((E.node.multiGet (E.order (p.content.map Message.txId))).isNone →
      (handleMessages L P deser H E e).sent = [] ∧ ¬ (handleMessages L P deser H E e).succeeded) := by
  constructor
  · intro ha
    obtain ⟨bs, hbs⟩ := Option.isSome_iff_exists.mp ha
    rw [handleMessages_concerned hc hbs]
    refine ⟨_, rfl, by simp, ?_, broadcastTx_succeeded _ _⟩
    intro v hv
    obtain ⟨m, _, rfl⟩ := List.mem_map.mp hv
    exact voteFor_other
  · intro ha
    rw [Option.isNone_iff_eq_none] at ha
    obtain ⟨h1, h2, h4, h5⟩ := hc
    unfold handleMessages
    rw [tryFrom_ok.mpr h1]
    simp only
    rw [if_neg (by simp [h2]), if_neg (by simpa using h4), if_neg (by omega)]
    unfold finalizedBlocks
    rw [ha]
    simp [Outcome.failed, Outcome.succeeded]

theorem C70_sui_messages_else (L : Lowering) (P : Json J) (deser : V → Option (PollStarted (List Message)))
    (H : Handler) (E : Env J) (e : Event (Abci V))
    (hc : ∀ p, ¬ Concerns "wasm-messages_poll_started".toList deser H E.latestBlock e p) :
    (handleMessages L P deser H E e).sent = [] ∧
      ((handleMessages L P deser H E e).succeeded ↔
        ¬ Undecodable "wasm-messages_poll_started".toList deser e) := by
  by_cases hu : Undecodable "wasm-messages_poll_started".toList deser e
  · have ht := tryFrom_malformed.mpr hu
    unfold handleMessages
    rw [ht]
    exact ⟨rfl, fun h => by simp [Outcome.succeeded, Outcome.failed] at h, fun h => absurd hu h⟩
  · rw [handleMessages_not_concerned hc hu]
    exact ⟨rfl, fun _ => hu, fun _ => rfl⟩

/-- One ballot with one vote about a worker set of Sui, provided the node answers. -/
theorem C70_sui_worker_set (P : Json J) (deser : V → Option (PollStarted WorkerSet)) (H : Handler)
    (E : Env J) (e : Event (Abci V)) (p : PollStarted WorkerSet)
    (hsize : ∃ data, Encoding.Bcs.cat [
      Encoding.Bcs.seqB (p.content.operators.map (fun o => Encoding.Bcs.bytesB o.1)),
      Encoding.Bcs.seqB (p.content.operators.map (fun o => .ok (Encoding.Bcs.u128B o.2))),
      .ok (Encoding.Bcs.u128B p.content.threshold)] = .ok data)
    (hc : Concerns "wasm-worker_set_poll_started".toList deser H E.latestBlock e p) :
    ((E.node.getBlock p.content.txId).isSome →
      ∃ v : Vote,
        (handleWorkerSet P deser H E e).sent = [⟨H.worker, H.votingVerifier, .vote p.pollId [v]⟩] ∧
        (v = .succeededOnChain ∨ v = .notFound) ∧
        ((handleWorkerSet P deser H E e).succeeded ↔ E.accepted = true)) ∧
    ((E.node.getBlock p.content.txId).isNone →
      (handleWorkerSet P deser H E e).sent = [] ∧ ¬ (handleWorkerSet P deser H E e).succeeded) := by
  constructor
  · intro ha
    obtain ⟨b, hb⟩ := Option.isSome_iff_exists.mp ha
    have hfb : ∃ x, finalizedBlock E.node p.content.txId = some x := by
      unfold finalizedBlock
      rw [hb]
      simp only
      cases b.checkpoint <;> exact ⟨_, rfl⟩
    obtain ⟨x, hx⟩ := hfb
    have hv : ∃ v, workerSetVote P p.sourceGateway x p.content = .ok v ∧
        (v = .succeededOnChain ∨ v = .notFound) := by
      unfold workerSetVote
      cases x with
      | none => exact ⟨_, rfl, Or.inr rfl⟩
      | some b =>
        simp only
        unfold verifyWorkerSet
        split
        · exact ⟨_, rfl, Or.inr rfl⟩
        · rename_i ev _
          split
          · have : ∃ x, eventIsWorkerSet P ev p.content = .ok x := by
              unfold eventIsWorkerSet
              split
              · exact ⟨_, rfl⟩
              · obtain ⟨data, hdata⟩ := hsize
                have hod : operatorsData p.content = .ok data := hdata
                rw [hod]
                exact ⟨_, rfl⟩
            obtain ⟨x, hx⟩ := this
            rw [hx]
            cases x with
            | true => exact ⟨_, rfl, Or.inl rfl⟩
            | false => exact ⟨_, rfl, Or.inr rfl⟩
          · exact ⟨_, rfl, Or.inr rfl⟩
    obtain ⟨v, hv1, hv2⟩ := hv
    rw [handleWorkerSet_concerned hc hx hv1]
    exact ⟨v, rfl, hv2, broadcastTx_succeeded _ _⟩
  · intro ha
    rw [Option.isNone_iff_eq_none] at ha
    have hfb : finalizedBlock E.node p.content.txId = none := by
      unfold finalizedBlock
      rw [ha]
    obtain ⟨h1, h2, h4, h5⟩ := hc
    unfold handleWorkerSet
    rw [tryFrom_ok.mpr h1]
    simp only
    rw [if_neg (by simp [h2]), if_neg (by simpa using h4), if_neg (by omega), hfb]
    simp [Outcome.failed, Outcome.succeeded]

theorem C70_sui_worker_set_else (P : Json J) (deser : V → Option (PollStarted WorkerSet)) (H : Handler)
    (E : Env J) (e : Event (Abci V))
    (hc : ∀ p, ¬ Concerns "wasm-worker_set_poll_started".toList deser H E.latestBlock e p) :
    (handleWorkerSet P deser H E e).sent = [] ∧
      ((handleWorkerSet P deser H E e).succeeded ↔
        ¬ Undecodable "wasm-worker_set_poll_started".toList deser e) := by
  by_cases hu : Undecodable "wasm-worker_set_poll_started".toList deser e
  · have ht := tryFrom_malformed.mpr hu
    unfold handleWorkerSet
    rw [ht]
    exact ⟨rfl, fun h => by simp [Outcome.succeeded, Outcome.failed] at h, fun h => absurd hu h⟩
  · rw [handleWorkerSet_not_concerned hc hu]
    exact ⟨rfl, fun _ => hu, fun _ => rfl⟩

example : Concerns "wasm-messages_poll_started".toList (fun _ => some exPoll) ⟨1, 10⟩ exEnv.latestBlock
    (.abci ⟨"wasm-messages_poll_started".toList, 0⟩) exPoll ∧
    (exEnv.node.multiGet (exEnv.order (exPoll.content.map Message.txId))).isSome := by
  refine ⟨⟨⟨_, rfl, rfl, rfl⟩, rfl, by decide, by decide⟩, ?_⟩
  have ho : exEnv.order (exPoll.content.map Message.txId) = [[7]] := by decide +kernel
  rw [ho]
  rfl

end Sui

/-! ### The contract takes the ballots -/

/-- a ballot as a call of the contract -/
def ballotCall (t : ExecTx) (height : Nat) : Option VV.Call :=
  match t.msg with
  | .vote id votes => some ⟨height, t.sender, none, .vote id votes⟩
  | .submitSignature _ _ => none

/-- the number of items of the poll an event starts -/
def pollItems : VV.Event → Option Nat
  | .messagesPollStarted confs _ => some confs.length
  | .workerSetPollStarted _ _ _ _ => some 1
  | _ => none

theorem started_size {H : VV.Hashes} {s s' : VV.State} {c : VV.Call} {r : VV.Resp} {ev : VV.Event}
    {pm : VV.PollMeta} {n : Nat} (hx : VV.exec H s c = .ok (s', r)) (he : r.event = some ev)
    (hpm : VV.startedMeta r = some pm) (hn : pollItems ev = some n) :
    ∃ sp, s'.polls pm.pollId = some sp ∧ sp.poll.pollSize = n ∧ sp.poll.expiresAt = pm.expiresAt ∧
      ∀ a ∈ pm.participants, ∃ w, (a, w) ∈ sp.poll.voters := by
  have keys : ∀ (snap : Std.Snapshot) (id e k : Nat), ∀ a ∈ snap.participants.keys,
      ∃ w, (a, w) ∈ (Std.Poll.new id snap e k).voters := by
    intro snap id e k a ha
    rw [VV.voters_new]
    unfold OMap.keys at ha
    obtain ⟨x, hx1, rfl⟩ := List.mem_map.mp ha
    exact ⟨x.2, hx1⟩
  unfold VV.exec at hx
  split at hx
  · rename_i ms hms
    obtain ⟨answers, sts, _, _, _, _, _, _, hcase⟩ := VV.verifyMessages_ok hx
    rcases hcase with ⟨_, rfl, hev⟩ | ⟨_, ws, snap, confs, h1, h2, h3, h4, rfl⟩
    · rw [hev] at he; simp at he
    · rw [h4] at he
      simp only [Option.some.injEq] at he
      subst he
      simp only [VV.startedMeta, h4, Option.some.injEq] at hpm
      subst hpm
      simp only [pollItems, Option.some.injEq] at hn
      refine ⟨_, KV.set_self _ _ _, ?_, rfl, keys _ _ _ _⟩
      rw [← hn, mapE_length h3]
      rfl
  · obtain ⟨sp, p, _, _, _, rfl⟩ := VV.vote_ok hx
    simp [VV.startedMeta] at hpm
  · obtain ⟨sp, p, _, _, _, rfl⟩ := VV.endPoll_ok hx
    simp [VV.startedMeta] at hpm
  · obtain ⟨_, ws, snap, tx, k, h1, h2, h3, rfl, rfl⟩ := VV.verifyWorkerSet_ok hx
    simp only [Option.some.injEq] at he
    subst he
    simp only [VV.startedMeta, Option.some.injEq] at hpm
    subst hpm
    simp only [pollItems, Option.some.injEq] at hn
    exact ⟨_, KV.set_self _ _ _, hn, rfl, keys _ _ _ _⟩

/-- The contract accepts a ballot with the right number of votes from a participant who has not voted, until
the poll expires. -/
theorem ballot_accepted (H : VV.Hashes) (cfg : VV.Config) (hv : cfg.Valid) (cs : List VV.Call)
    {c : VV.Call} {r : VV.Resp} (hr : (c, r) ∈ VV.history H cfg cs) {ev : VV.Event} {pm : VV.PollMeta} {n : Nat}
    (he : r.event = some ev) (hpm : VV.startedMeta r = some pm) (hn : pollItems ev = some n)
    {a : Addr} (ha : a ∈ pm.participants) {votes : List Vote} (hl : votes.length = n) {height : Nat}
    (hh : height < pm.expiresAt) {ws : Option (List Registry.Worker)}
    (hfresh : ∀ e ∈ VV.history H cfg cs, e.1.sender = a → ∀ vs, e.1.msg ≠ .vote pm.pollId vs) :
    ∃ s' r', VV.exec H (VV.stateAfter H cfg cs) ⟨height, a, ws, .vote pm.pollId votes⟩ = .ok (s', r') := by
  unfold VV.history at hr
  rw [outs_eq_steps] at hr
  obtain ⟨st, hst, heq⟩ := List.mem_map.mp hr
  simp only [Prod.mk.injEq] at heq
  obtain ⟨rfl, rfl⟩ := heq
  obtain ⟨⟨cs₁, cs₂, rfl, hpre⟩, hx⟩ := steps_mem _ hst
  obtain ⟨sp, g1, g2, g3, g4⟩ := started_size hx he hpm hn
  have hpost : VV.stateAfter H cfg (cs₁ ++ [st.call]) = st.post := by
    unfold VV.stateAfter
    rw [runCalls_append, ← hpre]
    simp [runCalls, hx, commit]
  rw [← hpost] at g1
  have happ : cs₁ ++ st.call :: cs₂ = (cs₁ ++ [st.call]) ++ cs₂ := by simp
  obtain ⟨sp', k1, _, k3, _, k5, k6, _⟩ := VV.C12_fixed_data H cfg hv _ cs₂ g1
  rw [← happ] at k1
  have hinv := VV.inv_reachable H hv (cs₁ ++ st.call :: cs₂)
  have hp := hinv.polls _ _ k1
  have hcast := (Std.C03_cast_iff hp.reach height a votes).mpr
    ⟨by rw [k3]; exact g4 a ha, by rw [k5, g3]; exact hh, by rw [k6, g2]; exact hl, by
      cases hb : sp'.poll.ballot a with
      | none => rfl
      | some vs =>
        obtain ⟨c', r', q1, q2, q3, _⟩ := hp.ballots a vs hb
        exact absurd q3 (hfresh _ q1 q2 vs)⟩
  obtain ⟨p', hp'⟩ := hcast
  have hok : ∃ x, VV.exec H (VV.stateAfter H cfg (cs₁ ++ st.call :: cs₂))
      ⟨height, a, ws, .vote pm.pollId votes⟩ = .ok x := by
    unfold VV.exec VV.vote
    simp only [k1, hp']
    exact ⟨_, rfl⟩
  obtain ⟨x, hx'⟩ := hok
  exact ⟨x.1, x.2, hx'⟩

theorem readAll_length {α β : Type} {f : α → Option β} {l : List α} {r : List β} (h : readAll f l = some r) :
    r.length = l.length := by
  induction l generalizing r with
  | nil => simp only [readAll, Option.some.injEq] at h; subst h; rfl
  | cons a t ih =>
    unfold readAll at h
    cases hf : f a with
    | none => rw [hf] at h; simp at h
    | some b =>
      rw [hf] at h
      simp only at h
      cases ht : readAll f t with
      | none => rw [ht] at h; simp at h
      | some bs =>
        rw [ht] at h
        simp only [Option.some.injEq] at h
        subst h
        simp [ih ht]

theorem readAll_getElem {α β : Type} {f : α → Option β} {l : List α} {r : List β} (h : readAll f l = some r)
    {i : Nat} {a : α} (hi : l[i]? = some a) : ∃ b, f a = some b ∧ r[i]? = some b := by
  induction l generalizing r i with
  | nil => simp at hi
  | cons x t ih =>
    unfold readAll at h
    cases hf : f x with
    | none => rw [hf] at h; simp at h
    | some b =>
      rw [hf] at h
      simp only at h
      cases ht : readAll f t with
      | none => rw [ht] at h; simp at h
      | some bs =>
        rw [ht] at h
        simp only [Option.some.injEq] at h
        subst h
        cases i with
        | zero =>
          simp only [List.getElem?_cons_zero, Option.some.injEq] at hi
          subst hi
          exact ⟨b, hf, rfl⟩
        | succ i =>
          simp only [List.getElem?_cons_succ] at hi ⊢
          exact ih ht hi

theorem readAll_none {α β : Type} {f : α → Option β} {l : List α} {a : α} (ha : a ∈ l) (hf : f a = none) :
    readAll f l = none := by
  cases h : readAll f l with
  | none => rfl
  | some r =>
    obtain ⟨i, hi⟩ := List.mem_iff_getElem?.mp ha
    obtain ⟨b, hb, _⟩ := readAll_getElem h hi
    rw [hf] at hb
    simp at hb

namespace Evm

theorem readPoll_some {α : Type} {L : Lowering} {R : Reader} {a : Addr} {pm : VV.PollMeta} {x : Option α}
    {p : PollStarted α} (h : readPoll L R a pm x = some p) :
    x = some p.content ∧ p.pollId = pm.pollId ∧ p.expiresAt = pm.expiresAt ∧
      p.participants = pm.participants ∧ p.contract = a ∧ p.confirmationHeight = pm.confirmationHeight ∧
      (R.attr pm.sourceGateway).bind R.addr = some p.sourceGateway ∧
      (R.attr pm.sourceChain).bind (ChainName.parse L) = some p.sourceChain := by
  unfold readPoll at h
  cases h1 : (R.attr pm.sourceChain).bind (ChainName.parse L) with
  | none => rw [h1] at h; simp at h
  | some ch =>
    rw [h1] at h
    simp only at h
    cases h2 : (R.attr pm.sourceGateway).bind R.addr with
    | none => rw [h2] at h; simp at h
    | some g =>
      rw [h2] at h
      simp only at h
      cases x with
      | none => simp at h
      | some y =>
        simp only [Option.some.injEq] at h
        subst h
        exact ⟨rfl, rfl, rfl, rfl, rfl, rfl, rfl, rfl⟩

/-- Every ballot that a handler sends upon an event of the verifier is accepted by the verifier, in any later
state, if it arrives before the poll expires and the worker has not voted. -/
theorem C70_evm_messages_accepted {D : Type} (H : VV.Hashes) (cfg : VV.Config) (hv : cfg.Valid)
    (cs : List VV.Call) (c : VV.Call) (r : VV.Resp) (hr : (c, r) ∈ VV.history H cfg cs) (ev : VV.Event)
    (he : r.event = some ev) (L : Lowering) (R : Reader) (decodeLog : D → Option GatewayEvent) (hd : Handler)
    (E : Env D) (a : Addr) (t : ExecTx)
    (ht : t ∈ (handleMessages L decodeLog (readMessagesPoll L R) hd E (.abci (announced a ev))).sent)
    (height : Nat) (hh : ∀ pm, VV.startedMeta r = some pm → height < pm.expiresAt)
    (hfresh : ∀ pm, VV.startedMeta r = some pm → ∀ e ∈ VV.history H cfg cs, e.1.sender = hd.worker →
      ∀ vs, e.1.msg ≠ .vote pm.pollId vs) :
    t.contract = a ∧ ∃ call s' r', ballotCall t height = some call ∧
      VV.exec H (VV.stateAfter H cfg cs) call = .ok (s', r') := by
  obtain ⟨p, f, hc, hf, rfl⟩ := handleMessages_sent ht
  obtain ⟨⟨ab, hab, _, hdes⟩, hcon, _, hw, _⟩ := hc
  simp only [Event.abci.injEq] at hab
  subst hab
  simp only [announced, readMessagesPoll] at hdes
  cases ev with
  | messagesPollStarted confs pm =>
    simp only at hdes
    obtain ⟨g1, g2, g3, g4, g5, _⟩ := readPoll_some hdes
    refine ⟨by rw [← hcon, g5], ?_⟩
    have hpm : VV.startedMeta r = some pm := by simp [VV.startedMeta, he]
    obtain ⟨s', r', hx⟩ := ballot_accepted H cfg hv cs hr he hpm rfl (a := hd.worker) (by rw [← g4]; exact hw)
      (votes := p.content.map (voteFor L decodeLog p.sourceGateway
        ((E.order (p.content.map Message.txId)).filterMap (finalReceipt E.node f))))
      (by rw [List.length_map, readAll_length g1]) (hh pm hpm) (ws := none)
      (hfresh pm hpm)
    exact ⟨_, s', r', rfl, by rw [g2]; exact hx⟩
  | workerSetPollStarted _ _ _ _ => simp at hdes
  | voted _ _ => simp at hdes
  | pollEnded _ _ => simp at hdes

theorem C70_evm_worker_set_accepted {D : Type} (H : VV.Hashes) (cfg : VV.Config) (hv : cfg.Valid)
    (cs : List VV.Call) (c : VV.Call) (r : VV.Resp) (hr : (c, r) ∈ VV.history H cfg cs) (ev : VV.Event)
    (he : r.event = some ev) (L : Lowering) (R : Reader) (decodeLog : D → Option GatewayEvent) (hd : Handler)
    (E : Env D) (a : Addr) (t : ExecTx)
    (ht : t ∈ (handleWorkerSet decodeLog (readWorkerSetPoll L R) hd E (.abci (announced a ev))).sent)
    (height : Nat) (hh : ∀ pm, VV.startedMeta r = some pm → height < pm.expiresAt)
    (hfresh : ∀ pm, VV.startedMeta r = some pm → ∀ e ∈ VV.history H cfg cs, e.1.sender = hd.worker →
      ∀ vs, e.1.msg ≠ .vote pm.pollId vs) :
    t.contract = a ∧ ∃ call s' r', ballotCall t height = some call ∧
      VV.exec H (VV.stateAfter H cfg cs) call = .ok (s', r') := by
  obtain ⟨p, rr, v, hc, _, _, rfl⟩ := handleWorkerSet_sent ht
  obtain ⟨⟨ab, hab, _, hdes⟩, hcon, _, hw, _⟩ := hc
  simp only [Event.abci.injEq] at hab
  subst hab
  simp only [announced, readWorkerSetPoll] at hdes
  cases ev with
  | workerSetPollStarted tx i o pm =>
    simp only at hdes
    obtain ⟨g1, g2, g3, g4, g5, _⟩ := readPoll_some hdes
    refine ⟨by rw [← hcon, g5], ?_⟩
    have hpm : VV.startedMeta r = some pm := by simp [VV.startedMeta, he]
    obtain ⟨s', r', hx⟩ := ballot_accepted H cfg hv cs hr he hpm rfl (a := hd.worker) (by rw [← g4]; exact hw)
      (votes := [v]) rfl (hh pm hpm) (ws := none) (hfresh pm hpm)
    exact ⟨_, s', r', rfl, by rw [g2]; exact hx⟩
  | messagesPollStarted _ _ => simp at hdes
  | voted _ _ => simp at hdes
  | pollEnded _ _ => simp at hdes

end Evm

namespace Sui

theorem readPoll_some {α : Type} {R : Reader} {a : Addr} {pm : VV.PollMeta} {x : Option α}
    {p : PollStarted α} (h : readPoll R a pm x = some p) :
    x = some p.content ∧ p.pollId = pm.pollId ∧ p.expiresAt = pm.expiresAt ∧
      p.participants = pm.participants ∧ p.contract = a ∧
      (R.attr pm.sourceGateway).bind R.suiAddr = some p.sourceGateway := by
  unfold readPoll at h
  cases h2 : (R.attr pm.sourceGateway).bind R.suiAddr with
  | none => rw [h2] at h; simp at h
  | some g =>
    rw [h2] at h
    simp only at h
    cases x with
    | none => simp at h
    | some y =>
      simp only [Option.some.injEq] at h
      subst h
      exact ⟨rfl, rfl, rfl, rfl, rfl, rfl⟩

theorem C70_sui_messages_accepted {J : Type} (H : VV.Hashes) (cfg : VV.Config) (hv : cfg.Valid)
    (cs : List VV.Call) (c : VV.Call) (r : VV.Resp) (hr : (c, r) ∈ VV.history H cfg cs) (ev : VV.Event)
    (he : r.event = some ev) (L : Lowering) (R : Reader) (P : Json J) (hd : Handler)
    (E : Env J) (a : Addr) (t : ExecTx)
    (ht : t ∈ (handleMessages L P (readMessagesPoll L R) hd E (.abci (announced a ev))).sent)
    (height : Nat) (hh : ∀ pm, VV.startedMeta r = some pm → height < pm.expiresAt)
    (hfresh : ∀ pm, VV.startedMeta r = some pm → ∀ e ∈ VV.history H cfg cs, e.1.sender = hd.worker →
      ∀ vs, e.1.msg ≠ .vote pm.pollId vs) :
    t.contract = a ∧ ∃ call s' r', ballotCall t height = some call ∧
      VV.exec H (VV.stateAfter H cfg cs) call = .ok (s', r') := by
  obtain ⟨p, bs, hc, hf, rfl⟩ := handleMessages_sent ht
  obtain ⟨⟨ab, hab, _, hdes⟩, hcon, hw, _⟩ := hc
  simp only [Event.abci.injEq] at hab
  subst hab
  simp only [announced, readMessagesPoll] at hdes
  cases ev with
  | messagesPollStarted confs pm =>
    simp only at hdes
    obtain ⟨g1, g2, g3, g4, g5, _⟩ := readPoll_some hdes
    refine ⟨by rw [← hcon, g5], ?_⟩
    have hpm : VV.startedMeta r = some pm := by simp [VV.startedMeta, he]
    obtain ⟨s', r', hx⟩ := ballot_accepted H cfg hv cs hr he hpm rfl (a := hd.worker) (by rw [← g4]; exact hw)
      (votes := p.content.map (voteFor L P p.sourceGateway
        ((bs.filter (fun b => b.checkpoint.isSome)).map (fun b => (b.digest, b)))))
      (by rw [List.length_map, readAll_length g1]) (hh pm hpm) (ws := none)
      (hfresh pm hpm)
    exact ⟨_, s', r', rfl, by rw [g2]; exact hx⟩
  | workerSetPollStarted _ _ _ _ => simp at hdes
  | voted _ _ => simp at hdes
  | pollEnded _ _ => simp at hdes

theorem C70_sui_worker_set_accepted {J : Type} (H : VV.Hashes) (cfg : VV.Config) (hv : cfg.Valid)
    (cs : List VV.Call) (c : VV.Call) (r : VV.Resp) (hr : (c, r) ∈ VV.history H cfg cs) (ev : VV.Event)
    (he : r.event = some ev) (R : Reader) (P : Json J) (hd : Handler)
    (E : Env J) (a : Addr) (t : ExecTx)
    (ht : t ∈ (handleWorkerSet P (readWorkerSetPoll R) hd E (.abci (announced a ev))).sent)
    (height : Nat) (hh : ∀ pm, VV.startedMeta r = some pm → height < pm.expiresAt)
    (hfresh : ∀ pm, VV.startedMeta r = some pm → ∀ e ∈ VV.history H cfg cs, e.1.sender = hd.worker →
      ∀ vs, e.1.msg ≠ .vote pm.pollId vs) :
    t.contract = a ∧ ∃ call s' r', ballotCall t height = some call ∧
      VV.exec H (VV.stateAfter H cfg cs) call = .ok (s', r') := by
  obtain ⟨p, b, v, hc, _, _, rfl⟩ := handleWorkerSet_sent ht
  obtain ⟨⟨ab, hab, _, hdes⟩, hcon, hw, _⟩ := hc
  simp only [Event.abci.injEq] at hab
  subst hab
  simp only [announced, readWorkerSetPoll] at hdes
  cases ev with
  | workerSetPollStarted tx i o pm =>
    simp only at hdes
    obtain ⟨g1, g2, g3, g4, g5, _⟩ := readPoll_some hdes
    refine ⟨by rw [← hcon, g5], ?_⟩
    have hpm : VV.startedMeta r = some pm := by simp [VV.startedMeta, he]
    obtain ⟨s', r', hx⟩ := ballot_accepted H cfg hv cs hr he hpm rfl (a := hd.worker) (by rw [← g4]; exact hw)
      (votes := [v]) rfl (hh pm hpm) (ws := none) (hfresh pm hpm)
    exact ⟨_, s', r', rfl, by rw [g2]; exact hx⟩
  | messagesPollStarted _ _ => simp at hdes
  | voted _ _ => simp at hdes
  | pollEnded _ _ => simp at hdes

end Sui

end Amp.Ampd
