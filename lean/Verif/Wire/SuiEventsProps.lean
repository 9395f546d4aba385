import Verif.Ampd.SuiProps
import Verif.Chain.LogProps
import Verif.Wire.Format
import Verif.Wire.JsonLemmas
import Verif.Wire.ReadLemmas
import Verif.Wire.SuiEventsSpec

/-!
# C112: votes about Sui say what the contents of the events say
-/

namespace Amp.Wire

open Amp.Encoding (Bytes)
open Amp.Std (Vote)
open Amp.Router (Lowering)
open Amp.Ampd (readAll lastWith Abci Event ExecTx TxMsg)
open Amp.Ampd.Sui (ContractCall TxBlock SuiEvent Message WorkerSet PollStarted Handler Env Concerns DistinctEvents
  handleMessages handleWorkerSet)

/-! ### Helper lemmas -/

theorem hasField_iff (l : List (Str × Json)) (k : Str) (v : Json) : lastWith k l = some v ↔ HasField l k v := by
  induction l with
  | nil => simp [lastWith, HasField]
  | cons p t ih =>
    obtain ⟨k', w⟩ := p
    unfold lastWith
    cases h : lastWith k t with
    | some x =>
      simp only
      rw [← h, ih]
      constructor
      · rintro ⟨a, b, rfl, hb⟩
        exact ⟨(k', w) :: a, b, rfl, hb⟩
      · rintro ⟨a, b, hl, hb⟩
        cases a with
        | nil =>
          simp only [List.nil_append, List.cons.injEq] at hl
          obtain ⟨_, rfl⟩ := hl
          exact absurd rfl (hb _ (Ampd.lastWith_mem h))
        | cons y a =>
          simp only [List.cons_append, List.cons.injEq] at hl
          exact ⟨a, b, hl.2, hb⟩
    | none =>
      simp only
      constructor
      · intro hx
        split at hx
        · rename_i hk
          simp only [Option.some.injEq] at hx
          subst hk hx
          exact ⟨[], t, rfl, fun p hp e => Ampd.lastWith_none h p.2 (e ▸ hp)⟩
        · simp at hx
      · rintro ⟨a, b, hl, hb⟩
        cases a with
        | nil =>
          simp only [List.nil_append, List.cons.injEq, Prod.mk.injEq] at hl
          rw [if_pos hl.1.1, hl.1.2]
        | cons y a =>
          simp only [List.cons_append, List.cons.injEq] at hl
          have := ih.mpr ⟨a, b, hl.2, hb⟩
          rw [h] at this
          simp at this

theorem as32_iff (j : Json) (b : Bytes) : as32 j = some b ↔ ∃ s, j = .str s ∧ Writes32 s b := by
  cases j with
  | str s =>
    simp only [as32, asStr, C94_format, Json.str.injEq]
    constructor
    · exact fun h => ⟨s, rfl, h⟩
    · rintro ⟨_, rfl, h⟩
      exact h
  | _ => simp [as32, asStr]

theorem asStr_iff (j : Json) (s : Str) : asStr j = some s ↔ j = .str s := by
  cases j <;> simp [asStr]

theorem asU8_iff (j : Json) (n : Nat) : asU8 j = some n ↔ j = .nat n ∧ n < 256 := by
  cases j with
  | nat m =>
    simp only [asU8, asU64, Json.nat.injEq]
    constructor
    · intro h
      split at h
      · simp only [Option.some.injEq] at h
        subst h
        exact ⟨rfl, by assumption⟩
      · simp at h
    · rintro ⟨rfl, h⟩
      rw [if_pos h]
  | _ => simp [asU8, asU64]

theorem asBytes_iff (j : Json) (b : Bytes) : asVec asU8 j = some b ↔ IsBytes b ∧ j = .arr (b.map .nat) := by
  cases j with
  | arr l =>
    simp only [asVec, readAll_iff, asU8_iff, Json.arr.injEq]
    induction b generalizing l with
    | nil => cases l <;> simp [IsBytes]
    | cons x t ih =>
      cases l with
      | nil => simp
      | cons y u =>
        simp only [List.forall₂_cons, ih, List.map_cons, List.cons.injEq, IsBytes, List.mem_cons, forall_eq_or_imp]
        tauto
  | _ => simp [asVec]

theorem suiCall_fields (j : Json) (c : ContractCall) :
    suiCall j = some c ↔ ∃ a b d e, field callFields "source_id".toList j = some a ∧
      field callFields "destination_chain".toList j = some b ∧
      field callFields "destination_address".toList j = some d ∧ field callFields "payload_hash".toList j = some e ∧
      as32 a = some c.sourceId ∧ asStr b = some c.destinationChain ∧ asStr d = some c.destinationAddress ∧
      as32 e = some c.payloadHash := by
  unfold suiCall
  constructor
  · intro h
    split at h
    · rename_i a b d e h1 h2 h3 h4
      split at h
      · rename_i h5 h6 h7 h8
        simp only [Option.some.injEq] at h
        subst h
        exact ⟨a, b, d, e, h1, h2, h3, h4, h5, h6, h7, h8⟩
      · simp at h
    · simp at h
  · rintro ⟨a, b, d, e, h1, h2, h3, h4, h5, h6, h7, h8⟩
    simp only [h1, h2, h3, h4, h5, h6, h7, h8]

theorem field_pos (l : List Json) : ∀ (i : Nat) (n : Str), callFields[i]? = some n →
    field callFields n (.arr l) = if l.length = 4 then l[i]? else none := by
  intro i n h
  match i, h with
  | 0, h => cases h; rfl
  | 1, h => cases h; rfl
  | 2, h => cases h; rfl
  | 3, h => cases h; rfl
  | k + 4, h => simp [callFields] at h

theorem fitsAll_bytes (d : Nat) {b : Bytes} (h : IsBytes b) : Json.FitsAll d (b.map .nat) := by
  induction b with
  | nil => trivial
  | cons x t ih =>
    have hx : x ≤ u64Max := by
      have := h x (by simp)
      unfold u64Max
      omega
    exact ⟨hx, ih (fun y hy => h y (by simp [hy]))⟩

/-! ### The property -/

/-- C112: the contents of an event are understood as a contract call exactly if they say that this call was made. -/
theorem C112_call (j : Json) (c : ContractCall) : suiJson.contractCall j = some c ↔ SaysSuiCall j c := by
  show suiCall j = some c ↔ _
  rw [suiCall_fields]
  simp only [as32_iff, asStr_iff]
  cases j with
  | obj l =>
    simp only [field, hasField_iff, SaysSuiCall, Json.obj.injEq, reduceCtorEq, or_false]
    constructor
    · rintro ⟨_, _, _, _, h1, h2, h3, h4, ⟨s, rfl, hs⟩, rfl, rfl, ⟨t, rfl, ht⟩⟩
      exact ⟨s, t, hs, ht, l, rfl, h1, h2, h3, h4⟩
    · rintro ⟨s, t, hs, ht, _, rfl, h1, h2, h3, h4⟩
      exact ⟨_, _, _, _, h1, h2, h3, h4, ⟨s, rfl, hs⟩, rfl, rfl, ⟨t, rfl, ht⟩⟩
  | arr l =>
    rw [field_pos l 0 _ rfl, field_pos l 1 _ rfl, field_pos l 2 _ rfl, field_pos l 3 _ rfl]
    simp only [SaysSuiCall, reduceCtorEq, false_and, exists_false, false_or, Json.arr.injEq]
    constructor
    · rintro ⟨_, _, _, _, h1, h2, h3, h4, ⟨s, rfl, hs⟩, rfl, rfl, ⟨t, rfl, ht⟩⟩
      refine ⟨s, t, hs, ht, ?_⟩
      match l with
      | [] => simp at h1
      | [_] => simp at h1
      | [_, _] => simp at h1
      | [_, _, _] => simp at h1
      | [_, _, _, _] => simp_all
      | _ :: _ :: _ :: _ :: _ :: _ => simp at h1
    · rintro ⟨s, t, hs, ht, rfl⟩
      exact ⟨_, _, _, _, rfl, rfl, rfl, rfl, ⟨s, rfl, hs⟩, rfl, rfl, ⟨t, rfl, ht⟩⟩
  | _ => simp [field, SaysSuiCall]

/-- C112: the contents of an event are understood as a transfer of operatorship with certain bytes exactly if they say
so. -/
theorem C112_transfer (j : Json) (payload : Bytes) :
    suiJson.operatorship j = some payload ↔ SaysSuiTransfer j payload := by
  show suiTransfer j = some payload ↔ _
  have hb : suiTransfer j = some payload ↔ ∃ p, field transferFields "payload".toList j = some p ∧
      asVec asU8 p = some payload := by
    unfold suiTransfer
    cases field transferFields "payload".toList j <;> simp
  rw [hb]
  simp only [asBytes_iff]
  cases j with
  | obj l =>
    simp only [field, hasField_iff, SaysSuiTransfer, Json.obj.injEq, reduceCtorEq, or_false]
    constructor
    · rintro ⟨_, h, hi, rfl⟩
      exact ⟨hi, l, rfl, h⟩
    · rintro ⟨hi, _, rfl, h⟩
      exact ⟨_, h, hi, rfl⟩
  | arr l =>
    have hf : field transferFields "payload".toList (.arr l) = if l.length = 1 then l[0]? else none := rfl
    rw [hf]
    simp only [SaysSuiTransfer, reduceCtorEq, false_and, exists_false, false_or, Json.arr.injEq]
    match l with
    | [] => simp
    | [x] =>
      simp only [List.length_singleton, if_true, List.getElem?_cons_zero, Option.some.injEq, List.cons.injEq, and_true]
      constructor
      · rintro ⟨_, rfl, h⟩
        exact h
      · exact fun h => ⟨x, rfl, h⟩
    | _ :: _ :: _ => simp
  | _ => simp [field, SaysSuiTransfer]

/-- C112: contents say at most one call, and at most one transfer. -/
theorem C112_one (j : Json) :
    (∀ c c', SaysSuiCall j c → SaysSuiCall j c' → c = c') ∧
    (∀ p p', SaysSuiTransfer j p → SaysSuiTransfer j p' → p = p') := by
  refine ⟨fun c c' h h' => ?_, fun p p' h h' => ?_⟩
  · have := ((C112_call j c).mpr h).symm.trans ((C112_call j c').mpr h')
    simpa using this
  · have := ((C112_transfer j p).mpr h).symm.trans ((C112_transfer j p').mpr h')
    simpa using this

theorem writes32_encodeHex {b : Bytes} (hl : b.length = 32) (hb : IsBytes b) :
    Writes32 ("0x".toList ++ encodeHex b) b :=
  ⟨hl, hb, encodeHex b, Or.inr rfl, ((decodeHex_iff _ _).mp (decodeHex_encodeHex hb)).2⟩

/-- C112: what a Sui node shows for a contract call says this call, whatever the chain, the address and the payload; and
it does so after it was sent as text. -/
theorem C112_shown (finite : Str → Bool) (source : Bytes) (chain address : Str) (payload hash : Bytes)
    (hs : source.length = 32) (hsb : IsBytes source) (hh : hash.length = 32) (hhb : IsBytes hash)
    (hp : IsBytes payload) :
    SaysSuiCall (shownCall source chain address payload hash) ⟨source, chain, address, hash⟩ ∧
    fromStr finite (shownCall source chain address payload hash).render =
      some (shownCall source chain address payload hash) := by
  refine ⟨⟨_, _, writes32_encodeHex hs hsb, writes32_encodeHex hh hhb, Or.inl ⟨_, rfl, ?_, ?_, ?_, ?_⟩⟩, ?_⟩
  · exact (hasField_iff _ _ _).mp rfl
  · exact (hasField_iff _ _ _).mp rfl
  · exact (hasField_iff _ _ _).mp rfl
  · exact (hasField_iff _ _ _).mp rfl
  · refine fromStr_render finite ?_
    exact ⟨by omega, trivial, trivial, ⟨by omega, fitsAll_bytes _ hp⟩, trivial, trivial, trivial⟩

/-- C112: what a Sui node shows for a transfer of operatorship says this transfer, also after it was sent as text. -/
theorem C112_shown_transfer (finite : Str → Bool) (payload : Bytes) (hp : IsBytes payload) :
    SaysSuiTransfer (shownTransfer payload) payload ∧
    fromStr finite (shownTransfer payload).render = some (shownTransfer payload) := by
  refine ⟨⟨hp, Or.inl ⟨_, rfl, (hasField_iff _ _ _).mp rfl⟩⟩, fromStr_render finite ?_⟩
  exact ⟨by omega, ⟨by omega, fitsAll_bytes _ hp⟩, trivial⟩

theorem emitted_iff {L : Lowering} {gateway : Bytes} {b : TxBlock Json} {m : Message} :
    Ampd.Sui.Emitted L suiJson gateway b m ↔ ShowsSuiCall L gateway b m := by
  unfold Ampd.Sui.Emitted ShowsSuiCall
  simp only [C112_call]

theorem transferred_iff {gateway : Bytes} {b : TxBlock Json} {w : WorkerSet} :
    Ampd.Sui.Transferred suiJson gateway b w ↔ ShowsSuiTransfer gateway b w := by
  unfold Ampd.Sui.Transferred ShowsSuiTransfer
  simp only [C112_transfer]

variable {V : Type}

/-- C112: whatever the node answers, who votes `SucceededOnChain` for a message got, from the node, the block of its
transaction in a checkpoint, with an event of the gateway package whose contents say what the message says. -/
theorem C112_voted (L : Lowering) (deser : V → Option (PollStarted (List Message))) (H : Handler) (E : Env Json)
    (e : Event (Abci V)) (p : PollStarted (List Message)) (a : Abci V) (he : e = .abci a)
    (hp : deser a.attributes = some p) (t : ExecTx) (id : Nat) (votes : List Vote)
    (ht : t ∈ (handleMessages L suiJson deser H E e).sent) (hm : t.msg = .vote id votes)
    (i : Nat) (m : Message) (hi : p.content[i]? = some m) (hv : votes[i]? = some .succeededOnChain) :
    ∃ bs, E.node.multiGet (E.order (p.content.map Message.txId)) = some bs ∧
      ∃ b ∈ bs, ShowsSuiCall L p.sourceGateway b m := by
  simp only [← emitted_iff]
  exact Ampd.Sui.C69_sound L suiJson deser H E e p a he hp t id votes ht hm i m hi hv

/-- C112: if the node answers with the block of each transaction asked for, the vote for a message is `SucceededOnChain`
if the block of its transaction shows the call, and `NotFound` otherwise. -/
theorem C112_votes (L : Lowering) (deser : V → Option (PollStarted (List Message))) (H : Handler) (E : Env Json)
    (e : Event (Abci V)) (p : PollStarted (List Message)) (a : Abci V) (he : e = .abci a)
    (hp : deser a.attributes = some p) (ho : Ampd.Evm.Iterates E.order)
    (hh : Ampd.Sui.Honest E.node (E.order (p.content.map Message.txId)))
    (t : ExecTx) (id : Nat) (votes : List Vote)
    (ht : t ∈ (handleMessages L suiJson deser H E e).sent) (hm : t.msg = .vote id votes)
    (i : Nat) (m : Message) (hi : p.content[i]? = some m) (bs : List (TxBlock Json))
    (hbs : E.node.multiGet (E.order (p.content.map Message.txId)) = some bs) :
    ((∃ b ∈ bs, ShowsSuiCall L p.sourceGateway b m) → votes[i]? = some .succeededOnChain) ∧
    ((¬ ∃ b ∈ bs, ShowsSuiCall L p.sourceGateway b m) → votes[i]? = some .notFound) := by
  simp only [← emitted_iff]
  exact Ampd.Sui.C69_exact L suiJson deser H E e p a he hp ho hh t id votes ht hm i m hi bs hbs

/-- C112: whatever the node answers, who votes `SucceededOnChain` for a worker set got, from the node, the block of its
transaction in a checkpoint, with an event of the gateway package whose contents say the bytes of these operators. -/
theorem C112_voted_worker_set (deser : V → Option (PollStarted WorkerSet)) (H : Handler) (E : Env Json)
    (e : Event (Abci V)) (p : PollStarted WorkerSet) (a : Abci V) (he : e = .abci a)
    (hp : deser a.attributes = some p) (hw : p.content.Valid) (t : ExecTx) (id : Nat) (votes : List Vote)
    (ht : t ∈ (handleWorkerSet suiJson deser H E e).sent) (hm : t.msg = .vote id votes)
    (hv : .succeededOnChain ∈ votes) :
    ∃ b, E.node.getBlock p.content.txId = some b ∧ ShowsSuiTransfer p.sourceGateway b p.content := by
  simp only [← transferred_iff]
  exact Ampd.Sui.C69_worker_set_sound suiJson deser H E e p a he hp hw t id votes ht hm hv

/-- C112: who takes part in a poll about a worker set votes `SucceededOnChain` if the node answers with a block in which
the gateway package shows the bytes of its operators. -/
theorem C112_votes_worker_set (deser : V → Option (PollStarted WorkerSet)) (H : Handler) (E : Env Json)
    (e : Event (Abci V)) (p : PollStarted WorkerSet)
    (hc : Concerns "wasm-worker_set_poll_started".toList deser H E.latestBlock e p)
    (b : TxBlock Json) (hb : E.node.getBlock p.content.txId = some b) (hd : DistinctEvents b)
    (hdig : b.digest = p.content.txId) (hcp : b.checkpoint.isSome) (es : List (SuiEvent Json))
    (hes : b.events = some es) (ev : SuiEvent Json) (hev : ev ∈ es) (hseq : ev.seq = p.content.eventIndex)
    (hty : ev.type = ⟨p.sourceGateway, "validators".toList, "OperatorshipTransferred".toList, []⟩)
    (data : Bytes) (hj : SaysSuiTransfer ev.json data)
    (hdata : Encoding.Bcs.cat [
      Encoding.Bcs.seqB (p.content.operators.map (fun o => Encoding.Bcs.bytesB o.1)),
      Encoding.Bcs.seqB (p.content.operators.map (fun o => .ok (Encoding.Bcs.u128B o.2))),
      .ok (Encoding.Bcs.u128B p.content.threshold)] = .ok data) :
    (handleWorkerSet suiJson deser H E e).sent =
      [⟨H.worker, H.votingVerifier, .vote p.pollId [.succeededOnChain]⟩] :=
  Ampd.Sui.C69_worker_set_complete suiJson deser H E e p hc b hb hd hdig hcp es hes ev hev hseq hty data
    ((C112_transfer _ _).mpr hj) hdata

end Amp.Wire

namespace Amp.Chain

open Amp.Router (ChainName CCId)
open Amp.Prover (QuorumSigned IsBatch dataDigest executeDataOf)
open Amp.Wire (suiJson ShowsSuiCall)

/-! ### On the network -/

/-- `m` is in an event of the chain that its id names.  A gateway registered for that chain has a verifier for that
chain; if workers read that chain from Sui nodes, a block of that chain shows the contract call as made at the
configured source gateway.  (For other chains, as in `LoggedAtSource`.) -/
def ShownAtSource (P : Params) (setup : Setup) (l : List Entry) (R : Addr) (source : Addr → Source)
    (m : Router.Message) : Prop :=
  ∃ g gc vc, WasGateway P setup l R m.ccId.chain g ∧ setup g = some (.gateway gc) ∧
    setup gc.verifier = some (.verifier vc) ∧ vc.sourceChain = m.ccId.chain ∧ (source gc.verifier).Emitted vc m ∧
    ∀ L Rd saw onChain, source gc.verifier = .sui Wire.Json L Rd suiJson saw onChain →
      ∃ tx i h gateway src dest b, VV.parseMessageId m.ccId.id = some (tx, i) ∧ Rd.digest tx = some h ∧
        (Rd.attr vc.sourceGateway).bind Rd.suiAddr = some gateway ∧ Rd.suiAddr m.sourceAddress = some src ∧
        ChainName.parse L m.destinationChain = some dest ∧ onChain b ∧
        ShowsSuiCall L gateway b ⟨h, i, m.destinationAddress, dest, src, m.payloadHash⟩

theorem shown_of_emitted {P : Params} {setup : Setup} {l : List Entry} {R : Addr} {source : Addr → Source}
    {m : Router.Message} (h : EmittedAtSource P setup l R source m) : ShownAtSource P setup l R source m := by
  obtain ⟨g, gc, vc, h1, h2, h3, h4, h5⟩ := h
  refine ⟨g, gc, vc, h1, h2, h3, h4, h5, ?_⟩
  intro L Rd saw onChain hs
  rw [hs] at h5
  obtain ⟨tx, i, hh, gateway, src, dest, b, k1, k2, k3, k4, k5, k6, k7⟩ := h5
  exact ⟨tx, i, hh, gateway, src, dest, b, k1, k2, k3, k4, k5, k6, Wire.emitted_iff.mp k7⟩

/-- C112 with C75: what a gateway offers for its chain was injected by nexus or is in an event of the chain that its id
names. -/
theorem C112_delivered (P : Params) (setup : Setup) (txs : List Tx) (R : Addr) (rc : Router.Config)
    (nc : Nexus.Config) (hw : Wired setup (log P setup txs) R rc nc) (source : Addr → Source)
    (hwat : AllWatched P setup (log P setup txs) R source) (G : Addr) (gc : Gateway.Config)
    (hG : setup G = some (.gateway gc)) (hr : gc.router = R) (id : CCId) (m : Router.Message)
    (h : askGateway (worldAfter P setup txs) G [id] = .ok [m]) :
    m.ccId = id ∧ (InjectedByNexus (log P setup txs) rc.nexusGateway nc m ∨
      ShownAtSource P setup (log P setup txs) R source m) := by
  obtain ⟨h1, h2⟩ := C75_delivered_emitted P setup txs R rc nc hw source hwat G gc hG hr id m h
  exact ⟨h1, h2.imp_right shown_of_emitted⟩

/-- C112 with C76: what a quorum signed and what is shown as a completed proof was injected by nexus or is in an event
of the chain that its id names. -/
theorem C112_signed (P : Params) (setup : Setup) (txs : List Tx) (R : Addr) (rc : Router.Config)
    (nc : Nexus.Config) (hw : Wired setup (log P setup txs) R rc nc) (source : Addr → Source)
    (hwat : AllWatched P setup (log P setup txs) R source) (Q : Addr) (pc : Prover.Config) (sv : Str)
    (kt : Multisig.KeyType) (hQ : setup Q = some (.prover pc sv kt)) (mc : Multisig.Config)
    (hM : setup pc.multisig = some (.multisig mc)) (gc : Gateway.Config)
    (hG : setup pc.gateway = some (.gateway gc)) (hr : gc.router = R)
    (hd : SetsDistinctAt P (log P setup txs) pc.multisig) (sid : Nat) (p : Prover.Proof) (d : Encoding.Bytes)
    (h : askProof P (worldAfter P setup txs) Q sid = .ok p) (hc : p.status = .completed d) :
    ∃ l₁ e l₂ cur digest signers b ws msgs,
      log P setup txs = l₁ ++ e :: l₂ ∧ e.p.target = Q ∧ currentSet (worldOf P setup l₁) Q = some cur ∧
      QuorumSigned P.C cur digest signers ∧ dataDigest P.X pc.encoder b.data = .ok digest ∧
      IsBatch P.X pc ws msgs b ∧
      executeDataOf P.X pc.encoder p.data cur.threshold signers = .ok d ∧
      ∀ m ∈ msgs, InjectedByNexus (log P setup txs) rc.nexusGateway nc m ∨
        ShownAtSource P setup (log P setup txs) R source m := by
  obtain ⟨l₁, e, l₂, cur, digest, signers, b, ws, msgs, h1, h2, h3, h4, h5, h6, h7, h8⟩ :=
    C76_signed_emitted P setup txs R rc nc hw source hwat Q pc sv kt hQ mc hM gc hG hr hd sid p d h hc
  exact ⟨l₁, e, l₂, cur, digest, signers, b, ws, msgs, h1, h2, h3, h4, h5, h6, h7,
    fun m hm => (h8 m hm).imp_right shown_of_emitted⟩

end Amp.Chain
