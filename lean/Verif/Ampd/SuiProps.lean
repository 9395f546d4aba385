import Verif.Ampd.EvmProps
import Verif.Encoding.BcsProps

/-! # C69: votes about Sui -/

namespace Amp.Ampd

open Amp.Std (Vote)
open Amp.Encoding (Bytes)
open Amp.Router (ChainName Lowering)

namespace Sui

variable {V J : Type}

/-! ### Lemmas -/

theorem findEvent_some {b : TxBlock J} {i : Nat} {e : SuiEvent J} (h : findEvent b i = some e) :
    ∃ es, b.events = some es ∧ e ∈ es ∧ e.seq = i := by
  unfold findEvent at h
  cases hb : b.events with
  | none => rw [hb] at h; simp [flatOpt] at h
  | some es =>
    rw [hb] at h
    exact ⟨es, rfl, List.mem_of_find?_eq_some h, by simpa using List.find?_some h⟩

theorem findEvent_of {b : TxBlock J} {es : List (SuiEvent J)} {e : SuiEvent J} (hd : DistinctEvents b)
    (hb : b.events = some es) (he : e ∈ es) : findEvent b e.seq = some e := by
  unfold findEvent
  rw [hb]
  have := hd es hb
  clear hd hb
  simp only [flatOpt]
  induction es with
  | nil => simp at he
  | cons x t ih =>
    rw [List.find?_cons]
    rcases List.mem_cons.mp he with rfl | he
    · simp
    · have hx := (List.pairwise_cons.mp this).1 e he
      simp only [hx, decide_false]
      exact ih he (List.pairwise_cons.mp this).2

theorem verifyMessage_sound {L : Lowering} {P : Json J} {gateway : Bytes} {b : TxBlock J} {m : Message}
    (hc : b.checkpoint.isSome) (h : verifyMessage L P gateway b m = .succeededOnChain) :
    Emitted L P gateway b m := by
  unfold verifyMessage at h
  cases hf : findEvent b m.eventIndex with
  | none => rw [hf] at h; simp at h
  | some e =>
    rw [hf] at h
    simp only at h
    split at h
    · rename_i hx
      simp only [Bool.and_eq_true, decide_eq_true_eq] at hx
      obtain ⟨⟨h1, h2⟩, h3⟩ := hx
      obtain ⟨es, g1, g2, g3⟩ := findEvent_some hf
      unfold eventIsMessage at h3
      cases hj : P.contractCall e.json with
      | none => rw [hj] at h3; simp at h3
      | some c =>
        rw [hj] at h3
        simp only [Bool.and_eq_true, decide_eq_true_eq] at h3
        obtain ⟨⟨⟨c1, c2⟩, c3⟩, c4⟩ := h3
        refine ⟨h1, hc, es, g1, e, g2, g3, h2, c.destinationChain, c2.symm, ?_⟩
        rw [hj, ← c1, ← c3, ← c4]
    · simp at h

theorem verifyMessage_complete {L : Lowering} {P : Json J} {gateway : Bytes} {b : TxBlock J} {m : Message}
    (hd : DistinctEvents b) (h : Emitted L P gateway b m) :
    verifyMessage L P gateway b m = .succeededOnChain := by
  obtain ⟨h1, _, es, h2, e, h3, h4, h5, chain, h6, h7⟩ := h
  unfold verifyMessage
  rw [← h4, findEvent_of hd h2 h3]
  simp [h1, h5, EventType.structTag, eventIsMessage, h7, h6]

theorem voteFor_other {L : Lowering} {P : Json J} {gateway : Bytes} {bs : List (Bytes × TxBlock J)}
    {m : Message} :
    voteFor L P gateway bs m = .succeededOnChain ∨ voteFor L P gateway bs m = .notFound := by
  unfold voteFor
  split
  · right; rfl
  · unfold verifyMessage
    split
    · right; rfl
    · split
      · left; rfl
      · right; rfl

theorem handleMessages_sent {L : Lowering} {P : Json J} {deser : V → Option (PollStarted (List Message))}
    {H : Handler} {E : Env J} {e : Event (Abci V)} {t : ExecTx}
    (h : t ∈ (handleMessages L P deser H E e).sent) :
    ∃ p bs, Concerns "wasm-messages_poll_started".toList deser H E.latestBlock e p ∧
      E.node.multiGet (E.order (p.content.map Message.txId)) = some bs ∧
      t = ⟨H.worker, H.votingVerifier, .vote p.pollId (p.content.map (voteFor L P p.sourceGateway
        ((bs.filter (fun b => b.checkpoint.isSome)).map (fun b => (b.digest, b)))))⟩ := by
  unfold handleMessages at h
  cases ht : tryFrom "wasm-messages_poll_started".toList deser e with
  | mismatch => rw [ht] at h; simp [Outcome.ignored] at h
  | malformed => rw [ht] at h; simp [Outcome.failed] at h
  | ok p =>
    rw [ht] at h
    simp only at h
    split at h
    · simp [Outcome.ignored] at h
    · rename_i h1
      split at h
      · simp [Outcome.ignored] at h
      · rename_i h3
        split at h
        · simp [Outcome.ignored] at h
        · rename_i h4
          unfold finalizedBlocks at h
          cases hf : E.node.multiGet (E.order (p.content.map Message.txId)) with
          | none => rw [hf] at h; simp [Outcome.failed] at h
          | some bs =>
            rw [hf] at h
            simp only [broadcastTx, List.mem_singleton] at h
            refine ⟨p, bs, ⟨tryFrom_ok.mp ht, ?_, ?_, ?_⟩, hf, h⟩
            · exact (Classical.not_not.mp h1).symm
            · simpa using h3
            · omega

theorem handleMessages_concerned {L : Lowering} {P : Json J}
    {deser : V → Option (PollStarted (List Message))} {H : Handler} {E : Env J} {e : Event (Abci V)}
    {p : PollStarted (List Message)} {bs : List (TxBlock J)}
    (h : Concerns "wasm-messages_poll_started".toList deser H E.latestBlock e p)
    (hf : E.node.multiGet (E.order (p.content.map Message.txId)) = some bs) :
    handleMessages L P deser H E e =
      broadcastTx E.accepted ⟨H.worker, H.votingVerifier, .vote p.pollId (p.content.map
        (voteFor L P p.sourceGateway
          ((bs.filter (fun b => b.checkpoint.isSome)).map (fun b => (b.digest, b)))))⟩ := by
  obtain ⟨h1, h2, h4, h5⟩ := h
  unfold handleMessages
  rw [tryFrom_ok.mpr h1]
  simp only
  rw [if_neg (by simp [h2]), if_neg (by simpa using h4), if_neg (by omega)]
  unfold finalizedBlocks
  rw [hf]

theorem filed {bs : List (TxBlock J)} {k : Bytes} {b : TxBlock J}
    (h : (k, b) ∈ (bs.filter (fun b => b.checkpoint.isSome)).map (fun b => (b.digest, b))) :
    b ∈ bs ∧ b.checkpoint.isSome ∧ k = b.digest := by
  obtain ⟨x, hx, he⟩ := List.mem_map.mp h
  simp only [Prod.mk.injEq] at he
  obtain ⟨rfl, rfl⟩ := he
  obtain ⟨h1, h2⟩ := List.mem_filter.mp hx
  exact ⟨h1, by simpa using h2, rfl⟩

/-! ### Messages -/

/-- Soundness, whatever the node answers: if a ballot says `SucceededOnChain` for a message, the node has
returned a block with the digest of the message's transaction, included in a checkpoint, that shows that the
gateway package emitted the contract call with the same source, destination and payload hash in that
transaction at that sequence number. -/
theorem C69_sound (L : Lowering) (P : Json J) (deser : V → Option (PollStarted (List Message)))
    (H : Handler) (E : Env J) (e : Event (Abci V)) (p : PollStarted (List Message)) (a : Abci V)
    (he : e = .abci a) (hp : deser a.attributes = some p) (t : ExecTx) (id : Nat) (votes : List Vote)
    (ht : t ∈ (handleMessages L P deser H E e).sent) (hm : t.msg = .vote id votes)
    (i : Nat) (m : Message) (hi : p.content[i]? = some m) (hv : votes[i]? = some .succeededOnChain) :
    ∃ bs, E.node.multiGet (E.order (p.content.map Message.txId)) = some bs ∧
      ∃ b ∈ bs, Emitted L P p.sourceGateway b m := by
  obtain ⟨p', bs, hc, hf, rfl⟩ := handleMessages_sent ht
  obtain ⟨a', ha', _, hd'⟩ := hc.1
  rw [he] at ha'
  simp only [Event.abci.injEq] at ha'
  subst ha'
  rw [hp] at hd'
  simp only [Option.some.injEq] at hd'
  subst hd'
  simp only [TxMsg.vote.injEq] at hm
  rw [← hm.2, List.getElem?_map, hi] at hv
  simp only [Option.map_some, Option.some.injEq] at hv
  unfold voteFor at hv
  split at hv
  · simp at hv
  · rename_i b hb
    obtain ⟨g1, g2, g3⟩ := filed (lastWith_mem hb)
    exact ⟨bs, hf, b, g1, verifyMessage_sound g2 hv⟩

/-- Exactness: if the node answers with one block per digest asked for, the vote for a message is
`SucceededOnChain` exactly if the block of its transaction shows the contract call, and `NotFound`
otherwise. -/
theorem C69_exact (L : Lowering) (P : Json J) (deser : V → Option (PollStarted (List Message)))
    (H : Handler) (E : Env J) (e : Event (Abci V)) (p : PollStarted (List Message)) (a : Abci V)
    (he : e = .abci a) (hp : deser a.attributes = some p)
    (ho : Evm.Iterates E.order) (hh : Honest E.node (E.order (p.content.map Message.txId)))
    (t : ExecTx) (id : Nat) (votes : List Vote)
    (ht : t ∈ (handleMessages L P deser H E e).sent) (hm : t.msg = .vote id votes)
    (i : Nat) (m : Message) (hi : p.content[i]? = some m) (bs : List (TxBlock J))
    (hbs : E.node.multiGet (E.order (p.content.map Message.txId)) = some bs) :
    ((∃ b ∈ bs, Emitted L P p.sourceGateway b m) → votes[i]? = some .succeededOnChain) ∧
    ((¬ ∃ b ∈ bs, Emitted L P p.sourceGateway b m) → votes[i]? = some .notFound) := by
  obtain ⟨p', bs', hc, hf, rfl⟩ := handleMessages_sent ht
  obtain ⟨a', ha', _, hd'⟩ := hc.1
  rw [he] at ha'
  simp only [Event.abci.injEq] at ha'
  subst ha'
  rw [hp] at hd'
  simp only [Option.some.injEq] at hd'
  subst hd'
  rw [hbs] at hf
  simp only [Option.some.injEq] at hf
  subst hf
  simp only [TxMsg.vote.injEq] at hm
  rw [← hm.2, List.getElem?_map, hi]
  simp only [Option.map_some, Option.some.injEq]
  obtain ⟨bs'', e1, e2, e3, e4⟩ := hh
  rw [hbs] at e1
  simp only [Option.some.injEq] at e1
  subst e1
  constructor
  · rintro ⟨b, hb, hem⟩
    have hmem : (m.txId, b) ∈ (bs.filter (fun b => b.checkpoint.isSome)).map (fun b => (b.digest, b)) :=
      List.mem_map.mpr ⟨b, List.mem_filter.mpr ⟨hb, by simpa using hem.2.1⟩, by rw [hem.1]⟩
    unfold voteFor
    cases hl : lastWith m.txId ((bs.filter (fun b => b.checkpoint.isSome)).map (fun b => (b.digest, b))) with
    | none => exact absurd hmem (lastWith_none hl b)
    | some b' =>
      obtain ⟨g1, g2, g3⟩ := filed (lastWith_mem hl)
      have : b' = b := by
        refine List.inj_on_of_nodup_map (f := TxBlock.digest) (by rw [e2]; exact e3) g1 hb ?_
        rw [← g3, hem.1]
      subst this
      exact verifyMessage_complete (e4 _ g1) hem
  · intro hn
    rcases voteFor_other (L := L) (P := P) (gateway := p.sourceGateway)
      (bs := (bs.filter (fun b => b.checkpoint.isSome)).map (fun b => (b.digest, b))) (m := m) with h | h
    · exfalso
      apply hn
      obtain ⟨bs', g1, g2⟩ := C69_sound L P deser H E e p a he hp _ p.pollId _ ht rfl i m hi
        (by rw [List.getElem?_map, hi]; simp [h])
      rw [hbs] at g1
      simp only [Option.some.injEq] at g1
      subst g1
      exact g2
    · exact h

/-- What an event shows determines the message. -/
theorem C69_one_message_per_event (L : Lowering) (P : Json J) (gateway : Bytes) (b : TxBlock J)
    (hd : DistinctEvents b) (m m' : Message) (h : Emitted L P gateway b m) (h' : Emitted L P gateway b m')
    (hi : m.eventIndex = m'.eventIndex) : m = m' := by
  obtain ⟨h1, _, es, h2, e, h3, h4, h5, chain, h6, h7⟩ := h
  obtain ⟨h1', _, es', h2', e', h3', h4', h5', chain', h6', h7'⟩ := h'
  have e1 := findEvent_of hd h2 h3
  have e2 := findEvent_of hd h2' h3'
  rw [h4, hi, ← h4', e2] at e1
  simp only [Option.some.injEq] at e1
  subst e1
  rw [h7] at h7'
  simp only [Option.some.injEq, ContractCall.mk.injEq] at h7'
  obtain ⟨c1, c2, c3, c4⟩ := h7'
  subst c2
  cases m; cases m'
  simp_all

/-! ### Worker sets -/

theorem handleWorkerSet_sent {P : Json J} {deser : V → Option (PollStarted WorkerSet)} {H : Handler}
    {E : Env J} {e : Event (Abci V)} {t : ExecTx} (h : t ∈ (handleWorkerSet P deser H E e).sent) :
    ∃ p b v, Concerns "wasm-worker_set_poll_started".toList deser H E.latestBlock e p ∧
      finalizedBlock E.node p.content.txId = some b ∧
      workerSetVote P p.sourceGateway b p.content = .ok v ∧
      t = ⟨H.worker, H.votingVerifier, .vote p.pollId [v]⟩ := by
  unfold handleWorkerSet at h
  cases ht : tryFrom "wasm-worker_set_poll_started".toList deser e with
  | mismatch => rw [ht] at h; simp [Outcome.ignored] at h
  | malformed => rw [ht] at h; simp [Outcome.failed] at h
  | ok p =>
    rw [ht] at h
    simp only at h
    split at h
    · simp [Outcome.ignored] at h
    · rename_i h1
      split at h
      · simp [Outcome.ignored] at h
      · rename_i h3
        split at h
        · simp [Outcome.ignored] at h
        · rename_i h4
          cases hf : finalizedBlock E.node p.content.txId with
          | none => rw [hf] at h; simp [Outcome.failed] at h
          | some b =>
            rw [hf] at h
            simp only at h
            cases hv : workerSetVote P p.sourceGateway b p.content with
            | error x => rw [hv] at h; simp [Outcome.failed] at h
            | ok v =>
              rw [hv] at h
              simp only [broadcastTx, List.mem_singleton] at h
              refine ⟨p, b, v, ⟨tryFrom_ok.mp ht, ?_, ?_, ?_⟩, hf, hv, h⟩
              · exact (Classical.not_not.mp h1).symm
              · simpa using h3
              · omega

theorem handleWorkerSet_concerned {P : Json J} {deser : V → Option (PollStarted WorkerSet)} {H : Handler}
    {E : Env J} {e : Event (Abci V)} {p : PollStarted WorkerSet} {b : Option (TxBlock J)} {v : Vote}
    (h : Concerns "wasm-worker_set_poll_started".toList deser H E.latestBlock e p)
    (hf : finalizedBlock E.node p.content.txId = some b)
    (hv : workerSetVote P p.sourceGateway b p.content = .ok v) :
    handleWorkerSet P deser H E e =
      broadcastTx E.accepted ⟨H.worker, H.votingVerifier, .vote p.pollId [v]⟩ := by
  obtain ⟨h1, h2, h4, h5⟩ := h
  unfold handleWorkerSet
  rw [tryFrom_ok.mpr h1]
  simp only
  rw [if_neg (by simp [h2]), if_neg (by simpa using h4), if_neg (by omega), hf]
  simp only
  rw [hv]

theorem verifyWorkerSet_sound {P : Json J} {gateway : Bytes} {b : TxBlock J} {w : WorkerSet}
    (hw : w.Valid) (hcp : b.checkpoint.isSome)
    (h : verifyWorkerSet P gateway b w = .ok .succeededOnChain) : Transferred P gateway b w := by
  unfold verifyWorkerSet at h
  cases hf : findEvent b w.eventIndex with
  | none => rw [hf] at h; simp at h
  | some e =>
    rw [hf] at h
    simp only at h
    split at h
    · rename_i hx
      simp only [Bool.and_eq_true, decide_eq_true_eq] at hx
      obtain ⟨es, g1, g2, g3⟩ := findEvent_some hf
      unfold eventIsWorkerSet at h
      cases hj : P.operatorship e.json with
      | none => rw [hj] at h; simp at h
      | some data =>
        rw [hj] at h
        simp only at h
        cases ho : operatorsData w with
        | error x => rw [ho] at h; simp at h
        | ok bb =>
          rw [ho] at h
          simp only at h
          by_cases hdb : data = bb
          · subst hdb
            refine ⟨hx.1, hcp, es, g1, e, g2, g3, hx.2, data, hj, ?_⟩
            have h2 : ∀ w' ∈ w.operators.map Prod.snd, w' < 256 ^ 16 := by
              intro w' hw'
              obtain ⟨o, ho', rfl⟩ := List.mem_map.mp hw'
              have := hw.1 o ho'
              simp only [u128Max] at this
              omega
            have h3 : w.threshold < 256 ^ 16 := by
              have := hw.2
              simp only [u128Max] at this
              omega
            refine Encoding.Bcs.operatorship_roundtrip h2 h3 ?_
            rw [List.map_map]
            exact ho
          · simp [hdb] at h
    · simp at h

/-- Soundness for worker sets, whatever the node answers. -/
theorem C69_worker_set_sound (P : Json J) (deser : V → Option (PollStarted WorkerSet)) (H : Handler)
    (E : Env J) (e : Event (Abci V)) (p : PollStarted WorkerSet) (a : Abci V) (he : e = .abci a)
    (hp : deser a.attributes = some p) (hw : p.content.Valid) (t : ExecTx) (id : Nat) (votes : List Vote)
    (ht : t ∈ (handleWorkerSet P deser H E e).sent) (hm : t.msg = .vote id votes)
    (hv : .succeededOnChain ∈ votes) :
    ∃ b, E.node.getBlock p.content.txId = some b ∧ Transferred P p.sourceGateway b p.content := by
  obtain ⟨p', b, v, hc, hf, hvv, rfl⟩ := handleWorkerSet_sent ht
  obtain ⟨a', ha', _, hd'⟩ := hc.1
  rw [he] at ha'
  simp only [Event.abci.injEq] at ha'
  subst ha'
  rw [hp] at hd'
  simp only [Option.some.injEq] at hd'
  subst hd'
  simp only [TxMsg.vote.injEq] at hm
  rw [← hm.2, List.mem_singleton] at hv
  subst hv
  unfold finalizedBlock at hf
  cases hg : E.node.getBlock p.content.txId with
  | none => rw [hg] at hf; simp at hf
  | some b' =>
    rw [hg] at hf
    simp only at hf
    cases hcp : b'.checkpoint with
    | none =>
      rw [hcp] at hf
      simp only [Option.some.injEq] at hf
      subst hf
      simp [workerSetVote] at hvv
    | some c =>
      rw [hcp] at hf
      simp only [Option.some.injEq] at hf
      subst hf
      exact ⟨b', rfl, verifyWorkerSet_sound hw (by rw [hcp]; rfl) hvv⟩

/-- Completeness for worker sets. -/
theorem C69_worker_set_complete (P : Json J) (deser : V → Option (PollStarted WorkerSet)) (H : Handler)
    (E : Env J) (e : Event (Abci V)) (p : PollStarted WorkerSet)
    (hc : Concerns "wasm-worker_set_poll_started".toList deser H E.latestBlock e p)
    (b : TxBlock J) (hb : E.node.getBlock p.content.txId = some b) (hd : DistinctEvents b)
    (hdig : b.digest = p.content.txId) (hcp : b.checkpoint.isSome) (es : List (SuiEvent J))
    (hes : b.events = some es) (ev : SuiEvent J) (hev : ev ∈ es) (hseq : ev.seq = p.content.eventIndex)
    (hty : ev.type = ⟨p.sourceGateway, "validators".toList, "OperatorshipTransferred".toList, []⟩)
    (data : Bytes) (hj : P.operatorship ev.json = some data)
    (hdata : Encoding.Bcs.cat [
      Encoding.Bcs.seqB (p.content.operators.map (fun o => Encoding.Bcs.bytesB o.1)),
      Encoding.Bcs.seqB (p.content.operators.map (fun o => .ok (Encoding.Bcs.u128B o.2))),
      .ok (Encoding.Bcs.u128B p.content.threshold)] = .ok data) :
    (handleWorkerSet P deser H E e).sent =
      [⟨H.worker, H.votingVerifier, .vote p.pollId [.succeededOnChain]⟩] := by
  have hfb : finalizedBlock E.node p.content.txId = some (some b) := by
    unfold finalizedBlock
    rw [hb]
    simp only
    cases hx : b.checkpoint with
    | none => rw [hx] at hcp; simp at hcp
    | some c => rfl
  have hvote : workerSetVote P p.sourceGateway (some b) p.content = .ok .succeededOnChain := by
    have hod : operatorsData p.content = .ok data := hdata
    unfold workerSetVote verifyWorkerSet
    simp only
    rw [← hseq, findEvent_of hd hes hev]
    simp [hdig, hty, EventType.structTag, eventIsWorkerSet, hj, hod]
  rw [handleWorkerSet_concerned hc hfb hvote]
  rfl

/-! ### A concrete case -/

def exJson : Json (Option ContractCall × Option Bytes) := ⟨Prod.fst, Prod.snd⟩

def exBlock : TxBlock (Option ContractCall × Option Bytes) :=
  ⟨[7], some 3, some [⟨0, ⟨[9], "gateway".toList, "ContractCall".toList, []⟩,
    (some ⟨[5], "Polygon".toList, "0xabc".toList, [8]⟩, none)⟩,
    ⟨1, ⟨[9], "other".toList, "ContractCall".toList, []⟩,
    (some ⟨[5], "Polygon".toList, "0xabc".toList, [8]⟩, none)⟩]⟩

def exMsg : Message := ⟨[7], 0, "0xabc".toList, "polygon".toList, [5], [8]⟩

def exPoll : PollStarted (List Message) :=
  ⟨10, 1, [9], [exMsg, { exMsg with eventIndex := 1 }, { exMsg with payloadHash := [1] }], [1, 2], 50⟩

def exEnv : Env (Option ContractCall × Option Bytes) :=
  ⟨40, ⟨fun _ => none, fun ds => if ds = [[7]] then some [exBlock] else none⟩, true, List.eraseDups⟩

example : (handleMessages Router.asciiLower exJson (fun _ => some exPoll) ⟨1, 10⟩ exEnv
    (.abci ⟨"wasm-messages_poll_started".toList, 0⟩)).sent =
    [⟨1, 10, .vote 1 [.succeededOnChain, .notFound, .notFound]⟩] := by decide +kernel

example : Honest exEnv.node (exEnv.order (exPoll.content.map Message.txId)) := by
  have ho : exEnv.order (exPoll.content.map Message.txId) = [[7]] := by decide +kernel
  rw [ho]
  refine ⟨[exBlock], rfl, rfl, by decide +kernel, ?_⟩
  intro b hb es hes
  simp only [List.mem_singleton] at hb
  subst hb
  simp only [exBlock, Option.some.injEq] at hes
  subst hes
  simp

/-- a transfer of operatorship -/
def exSet : WorkerSet := ⟨[7], 0, [([1], 10), ([2], 20)], 20⟩

def exSetBlock : TxBlock (Option ContractCall × Option Bytes) :=
  ⟨[7], some 3, some [⟨0, ⟨[9], "validators".toList, "OperatorshipTransferred".toList, []⟩,
    (none, match operatorsData exSet with | .ok b => some b | .error _ => none)⟩]⟩

example : exSet.Valid := by unfold WorkerSet.Valid; decide

example : (handleWorkerSet exJson (fun _ => some ⟨10, 1, [9], exSet, [1, 2], 50⟩) ⟨1, 10⟩
    ⟨40, ⟨fun _ => some exSetBlock, fun _ => none⟩, true, id⟩
    (.abci ⟨"wasm-worker_set_poll_started".toList, 0⟩)).sent =
    [⟨1, 10, .vote 1 [.succeededOnChain]⟩] := by decide +kernel

example : (handleWorkerSet exJson (fun _ => some ⟨10, 1, [9], { exSet with threshold := 21 }, [1, 2], 50⟩) ⟨1, 10⟩
    ⟨40, ⟨fun _ => some exSetBlock, fun _ => none⟩, true, id⟩
    (.abci ⟨"wasm-worker_set_poll_started".toList, 0⟩)).sent =
    [⟨1, 10, .vote 1 [.notFound]⟩] := by decide +kernel

end Sui

end Amp.Ampd
