import Verif.Chain.DaemonsProps
import Verif.Chain.TrustProps
import Verif.Ampd.PipelineProps

/-!
# C92: from the blocks of the chain through the workers' daemons back into blocks
-/

namespace Amp.Chain

open Amp.Router (ChainName CCId Message)
open Amp.Std (Vote)
open Amp.Multisig (WorkerSet)
open Amp.Prover (Nameable ChainIdFits dataSize)
open Amp.Ampd.Signing (weightIn)
open Amp.Ampd (Process Outcome Label BroadcastCfg handlerOut fileAfterAll)

variable {P : Params} {setup : Setup}

/-! ### Specification -/

/-- How the attributes of a published event read: as an event of a voting verifier or of a multisig contract, with the
address of the contract, or as neither. -/
structure View (A : Type) where
  verifier : A → Option (Addr × VV.Event)
  multisig : A → Option (Addr × Multisig.Event)

/-- `x` is the event `ev` of the verifier at `V` as published -/
def View.Shows {A : Type} (v : View A) (x : Ampd.Abci A) (V : Addr) (ev : VV.Event) : Prop :=
  x.type = Ampd.eventType ev ∧ v.verifier x.attributes = some (V, ev)

/-- `x` is the event `ev` of the multisig contract at `M` as published -/
def View.ShowsSigning {A : Type} (v : View A) (x : Ampd.Abci A) (M : Addr) (ev : Multisig.Event) : Prop :=
  x.type = Ampd.Signing.eventType ev ∧ v.multisig x.attributes = some (M, ev)

/-- what is published of the contract at `V` is what it emitted (`l` is the log of the chain) -/
def Authentic {R A : Type} (v : View A) (W : Ampd.World R (Ampd.Abci A)) (V : Addr) (l : List Entry) : Prop :=
  ∀ b r x ev, r ∈ Ampd.contents (W.chain b) → W.decode r = some x → v.verifier x.attributes = some (V, ev) →
    ∃ e ∈ l, ∃ c resp, e.p.target = V ∧ e.act = .verifier c resp ∧ resp.event = some ev

/-- worker `a`'s handler for messages of the verifier at `V` can end with `o` when given `e` -/
def Source.MessageHandler {A : Type} (v : View A) (s : Source) (V a : Addr) (e : Ampd.Event (Ampd.Abci A))
    (o : Outcome) : Prop :=
  match s with
  | .evm _ L R decodeLog chain saw _ => ∃ E, saw a E ∧ o = Ampd.Evm.handleMessages L decodeLog
      (fun x => (v.verifier x).bind (Ampd.Evm.readMessagesPoll L R)) ⟨a, V, chain⟩ E e
  | .sui _ L R json saw _ => ∃ E, saw a E ∧ o = Ampd.Sui.handleMessages L json
      (fun x => (v.verifier x).bind (Ampd.Sui.readMessagesPoll L R)) ⟨a, V⟩ E e

/-- the same for its handler for worker sets -/
def Source.SetHandler {A : Type} (v : View A) (s : Source) (V a : Addr) (e : Ampd.Event (Ampd.Abci A))
    (o : Outcome) : Prop :=
  match s with
  | .evm _ L R decodeLog chain saw _ => ∃ E, saw a E ∧ o = Ampd.Evm.handleWorkerSet decodeLog
      (fun x => (v.verifier x).bind (Ampd.Evm.readWorkerSetPoll L R)) ⟨a, V, chain⟩ E e
  | .sui _ _ R json saw _ => ∃ E, saw a E ∧ o = Ampd.Sui.handleWorkerSet json
      (fun x => (v.verifier x).bind (Ampd.Sui.readWorkerSetPoll R)) ⟨a, V⟩ E e

/-- Worker `a` runs the daemon (with the configuration `cfg` of the broadcaster and `outcome` telling what its
handlers do), and one of its processes, after earlier runs `rs`, takes care of the poll announced in block `b`: the
message handler, with label `l`, completes the block, with a node that shows the contract call in a final block; the
queue of the process gets to broadcast the ballot; and ballots for the poll in the worker's transactions get into
blocks before the poll expires.  The worker votes in the poll with the daemon only. -/
structure Operates {R A : Type} (P : Params) (setup : Setup) (txs₁ txs₂ : List Tx) (s : Source) (V a : Addr)
    (confs : List VV.TxConfirmation) (pm : VV.PollMeta) (cf : VV.TxConfirmation) (v : View A)
    (W : Ampd.World R (Ampd.Abci A)) (b : Nat) (cfg : BroadcastCfg) (l : Label)
    (outcome : Label → Ampd.Event (Ampd.Abci A) → Outcome → Prop)
    (rs : List Ampd.Run) (p : Process) : Prop where
  handler : ∀ e o, outcome l e o → s.MessageHandler v V a e o
  others : ∀ l', l' ≠ l → ∀ e o, outcome l' e o → s.SetHandler v V a e o ∨ ∀ t ∈ o.sent, t.contract ≠ V
  sane : Ampd.Sane W l [] (rs ++ [p.run])
  genuine : Ampd.Genuine W outcome cfg (fileAfterAll W rs) p
  completed : b ∈ (handlerOut W (fileAfterAll W rs) p.run l).2
  shown : ∀ x o, v.Shows x V (.messagesPollStarted confs pm) → outcome l (.abci x) o → o.succeeded →
    ∃ latest, s.Handled V confs pm cf a latest o.sent ∧ latest < pm.expiresAt
  caught : ∀ vs, (⟨a, V, .vote pm.pollId vs⟩ : Ampd.ExecTx) ∈ p.answers l → p.Caught cfg ⟨a, V, .vote pm.pollId vs⟩
  included : ∀ tx ∈ p.transactions cfg, ∀ vs, (⟨a, V, .vote pm.pollId vs⟩ : Ampd.ExecTx) ∈ tx.msgs →
    GotBefore P setup txs₁ txs₂ a V (.verifier (.vote pm.pollId vs)) pm.expiresAt
  own : ∀ vs, VotedAt (log P setup (txs₁ ++ txs₂)) V a pm.pollId vs →
    ∃ f p', Ampd.Genuine W outcome cfg f p' ∧ ∃ tx ∈ p'.transactions cfg, ⟨a, V, .vote pm.pollId vs⟩ ∈ tx.msgs

/-- Worker `a` runs the daemon, and one of its processes, after earlier runs `rs`, takes care of the signing session
`sid` announced in block `b`: the handler for signing at `M`, with label `l`, completes the block; the key manager signs
the digest with the worker's key `pk`, as listed in the announcement; the queue of the process gets to broadcast the
signature; and signatures for the session in its transactions get into blocks. -/
structure OperatesSigner {R A : Type} (P : Params) (setup : Setup) (txs₁ txs₂ : List Tx) (R' : Ampd.Signing.Reader)
    (M a : Addr) (sid : Nat) (wid : Str) (keys : List (Addr × Multisig.PublicKey)) (digest : Encoding.Bytes)
    (chain : ChainName) (v : View A) (W : Ampd.World R (Ampd.Abci A)) (b : Nat) (cfg : BroadcastCfg) (l : Label)
    (outcome : Label → Ampd.Event (Ampd.Abci A) → Outcome → Prop) (rs : List Ampd.Run) (p : Process) : Prop where
  signs : ∀ x o, v.ShowsSigning x M (.signingStarted sid wid keys digest chain) → outcome l (.abci x) o → o.succeeded →
    ∃ E pk k sig, o = Ampd.Signing.handle (fun x => (v.multisig x).bind (Ampd.Signing.readSigning R')) ⟨a, M⟩ E
        (.abci x) ∧ (a, pk) ∈ keys ∧ R'.key pk = some k ∧
      E.sign M digest k = some (Multisig.Signature.bytes sig) ∧ Multisig.Valid P.C digest pk sig
  sane : Ampd.Sane W l [] (rs ++ [p.run])
  genuine : Ampd.Genuine W outcome cfg (fileAfterAll W rs) p
  completed : b ∈ (handlerOut W (fileAfterAll W rs) p.run l).2
  caught : ∀ sig, (⟨a, M, .submitSignature sid sig⟩ : Ampd.ExecTx) ∈ p.answers l →
    p.Caught cfg ⟨a, M, .submitSignature sid sig⟩
  included : ∀ tx ∈ p.transactions cfg, ∀ sig, (⟨a, M, .submitSignature sid sig⟩ : Ampd.ExecTx) ∈ tx.msgs →
    Got P setup txs₁ txs₂ a M (.multisig (.submitSignature sid sig))

/-! ### Lemmas -/

theorem decodeAll_mem {R A : Type} {f : R → Option A} {rs : List R} {as : List A} (h : Ampd.decodeAll f rs = some as)
    {a : A} (ha : a ∈ as) : ∃ r ∈ rs, f r = some a := by
  induction rs generalizing as with
  | nil => simp only [Ampd.decodeAll, Option.some.injEq] at h; subst h; simp at ha
  | cons r rs ih =>
    unfold Ampd.decodeAll at h
    split at h
    · simp at h
    · rename_i x hx
      split at h
      · simp at h
      · rename_i xs hxs
        simp only [Option.some.injEq] at h
        subst h
        rcases List.mem_cons.mp ha with rfl | ha
        · exact ⟨r, List.mem_cons_self .., hx⟩
        · obtain ⟨r', h1, h2⟩ := ih hxs ha
          exact ⟨r', List.mem_cons_of_mem _ h1, h2⟩

theorem rawEvents_eq {R : Type} (b : Ampd.BlockResults R) : Ampd.rawEvents b = Ampd.contents b := by
  unfold Ampd.rawEvents Ampd.contents
  cases b.beginBlock <;> cases b.txs <;> cases b.endBlock <;> simp [Ampd.flatOpt]

/-- a published event is one of a block -/
theorem processBlock_mem {R A : Type} {W : Ampd.World R A} {h : Nat} {rep : Ampd.BlockReply} {a : A}
    (ha : Ampd.Event.abci a ∈ (Ampd.processBlock W h rep).1) :
    ∃ r ∈ Ampd.contents (W.chain h), W.decode r = some a := by
  unfold Ampd.processBlock at ha
  split at ha
  · simp at ha
  · split at ha
    · simp at ha
    · rename_i evs hevs
      have key : Ampd.Event.abci a ∈ Ampd.Event.blockBegin h :: (evs.map .abci ++ [.blockEnd h]) := by
        simp only at ha
        split at ha
        · exact ha
        · split at ha
          · exact List.mem_of_mem_take ha
          · exact ha
      simp only [List.mem_cons, reduceCtorEq, List.mem_append, List.mem_map, Ampd.Event.abci.injEq, exists_eq_right,
        List.not_mem_nil, or_false, false_or] at key
      obtain ⟨r, h1, h2⟩ := decodeAll_mem hevs key
      exact ⟨r, by rw [← rawEvents_eq]; exact h1, h2⟩

theorem processBlocks_mem {R A : Type} {W : Ampd.World R A} {t : Ampd.Tick} {upTo : Nat} {a : A} (n h : Nat)
    (ha : Ampd.Event.abci a ∈ (Ampd.processBlocks W t upTo n h).1) :
    ∃ b, ∃ r ∈ Ampd.contents (W.chain b), W.decode r = some a := by
  induction n generalizing h with
  | zero => simp [Ampd.processBlocks] at ha
  | succ n ih =>
    cases hp : Ampd.processBlock W h (t.block h) with
    | mk es ok =>
      have hes : Ampd.Event.abci a ∈ es → ∃ b, ∃ r ∈ Ampd.contents (W.chain b), W.decode r = some a := by
        intro he
        exact ⟨h, processBlock_mem (rep := t.block h) (by rw [hp]; exact he)⟩
      unfold Ampd.processBlocks at ha
      rw [hp] at ha
      cases ok with
      | false => exact hes ha
      | true =>
        simp only at ha
        split at ha
        · exact hes ha
        · rcases List.mem_append.mp ha with ha | ha
          · exact hes ha
          · exact ih _ ha

theorem subLoop_mem {R A : Type} {W : Ampd.World R A} {a : A} (ts : List Ampd.Tick) (curr : Nat)
    (ha : Ampd.Event.abci a ∈ (Ampd.subLoop W curr ts).1) :
    ∃ b, ∃ r ∈ Ampd.contents (W.chain b), W.decode r = some a := by
  induction ts generalizing curr with
  | nil => simp [Ampd.subLoop] at ha
  | cons t ts ih =>
    have hfrom : Ampd.Event.abci a ∈ (Ampd.processBlocksFrom W t curr).1 →
        ∃ b, ∃ r ∈ Ampd.contents (W.chain b), W.decode r = some a := by
      unfold Ampd.processBlocksFrom
      cases t.latest with
      | none => simp
      | some upTo => exact processBlocks_mem _ _
    unfold Ampd.subLoop at ha
    cases hp : Ampd.processBlocksFrom W t curr with
    | mk es ok =>
      rw [hp] at ha hfrom
      cases ok with
      | none => exact hfrom ha
      | some h =>
        rcases List.mem_append.mp ha with ha | ha
        · exact hfrom ha
        · exact ih _ ha

/-- an event given to a handler is one of a block -/
theorem given_mem {R A : Type} {W : Ampd.World R A} {f : Ampd.StateFile} {r : Ampd.Run} {l : Label} {a : A}
    (ha : Ampd.Event.abci a ∈ (handlerOut W f r l).1) :
    ∃ b, ∃ x ∈ Ampd.contents (W.chain b), W.decode x = some a := by
  have hpub : Ampd.Event.abci a ∈ Ampd.published W f r := by
    unfold handlerOut at ha
    split at ha
    · simp at ha
    · rename_i h _
      unfold Ampd.runHandler at ha
      dsimp only at ha
      split at ha
      · obtain ⟨h1, _⟩ := Ampd.consume_spec (Ampd.stream h.2.recv (Ampd.published W f r)) h.2.replies
        exact Ampd.stream_mem (Ampd.okPrefix_mem (h1.subset ha))
      · rename_i c _
        obtain ⟨h1, _⟩ := Ampd.consume_spec
          (Ampd.skipToBlock (c + 1) (Ampd.stream h.2.recv (Ampd.published W f r))) h.2.replies
        exact Ampd.stream_mem (List.dropWhile_subset _ (Ampd.okPrefix_mem (h1.subset ha)))
  unfold Ampd.published Ampd.runSub at hpub
  split at hpub
  · simp at hpub
  · exact subLoop_mem _ _ hpub

/-- a ballot of the message handler answers the announcement of a poll about messages -/
theorem messageHandler_ballot {A : Type} {v : View A} {s : Source} {V a : Addr} {e : Ampd.Event (Ampd.Abci A)} {o : Outcome}
    (h : s.MessageHandler v V a e o) {id : Nat} {vs : List Vote} (ht : ⟨a, V, .vote id vs⟩ ∈ o.sent) :
    ∃ x confs pm, e = .abci x ∧ v.Shows x V (.messagesPollStarted confs pm) ∧ pm.pollId = id := by
  cases s with
  | evm D L R decodeLog chain saw onChain =>
    obtain ⟨E, _, rfl⟩ := h
    obtain ⟨p, f, ⟨⟨ab, hab, hty, hdes⟩, hc, _⟩, _, heq⟩ := Ampd.Evm.handleMessages_sent ht
    simp only [Ampd.ExecTx.mk.injEq, Ampd.TxMsg.vote.injEq] at heq
    obtain ⟨⟨V', ev⟩, hv, hdes⟩ := Option.bind_eq_some_iff.mp hdes
    unfold Ampd.Evm.readMessagesPoll at hdes
    split at hdes
    · rename_i confs pm hev
      simp only at hev
      subst hev
      have := Ampd.Evm.readPoll_some hdes
      have hV : V' = V := by rw [← show p.contract = V from hc]; exact this.2.2.2.2.1.symm
      subst hV
      exact ⟨ab, confs, pm, hab, ⟨hty, hv⟩, by rw [← this.2.1]; exact heq.2.2.1.symm⟩
    · simp at hdes
  | sui J L R json saw onChain =>
    obtain ⟨E, _, rfl⟩ := h
    obtain ⟨p, f, ⟨⟨ab, hab, hty, hdes⟩, hc, _⟩, _, heq⟩ := Ampd.Sui.handleMessages_sent ht
    simp only [Ampd.ExecTx.mk.injEq, Ampd.TxMsg.vote.injEq] at heq
    obtain ⟨⟨V', ev⟩, hv, hdes⟩ := Option.bind_eq_some_iff.mp hdes
    unfold Ampd.Sui.readMessagesPoll at hdes
    split at hdes
    · rename_i confs pm hev
      simp only at hev
      subst hev
      have := Ampd.Sui.readPoll_some hdes
      have hV : V' = V := by rw [← show p.contract = V from hc]; exact this.2.2.2.2.1.symm
      subst hV
      exact ⟨ab, confs, pm, hab, ⟨hty, hv⟩, by rw [← this.2.1]; exact heq.2.2.1.symm⟩
    · simp at hdes

/-- a ballot of the worker set handler answers the announcement of a poll about a worker set -/
theorem setHandler_ballot {A : Type} {v : View A} {s : Source} {V a : Addr} {e : Ampd.Event (Ampd.Abci A)} {o : Outcome}
    (h : s.SetHandler v V a e o) {id : Nat} {vs : List Vote} (ht : ⟨a, V, .vote id vs⟩ ∈ o.sent) :
    ∃ x tx i ops pm, e = .abci x ∧ v.Shows x V (.workerSetPollStarted tx i ops pm) ∧ pm.pollId = id := by
  cases s with
  | evm D L R decodeLog chain saw onChain =>
    obtain ⟨E, _, rfl⟩ := h
    obtain ⟨p, rr, w, ⟨⟨ab, hab, hty, hdes⟩, hc, _⟩, _, _, heq⟩ := Ampd.Evm.handleWorkerSet_sent ht
    simp only [Ampd.ExecTx.mk.injEq, Ampd.TxMsg.vote.injEq] at heq
    obtain ⟨⟨V', ev⟩, hv, hdes⟩ := Option.bind_eq_some_iff.mp hdes
    unfold Ampd.Evm.readWorkerSetPoll at hdes
    split at hdes
    · rename_i tx i ops pm hev
      simp only at hev
      subst hev
      have := Ampd.Evm.readPoll_some hdes
      have hV : V' = V := by rw [← show p.contract = V from hc]; exact this.2.2.2.2.1.symm
      subst hV
      exact ⟨ab, tx, i, ops, pm, hab, ⟨hty, hv⟩, by rw [← this.2.1]; exact heq.2.2.1.symm⟩
    · simp at hdes
  | sui J L R json saw onChain =>
    obtain ⟨E, _, rfl⟩ := h
    obtain ⟨p, rr, w, ⟨⟨ab, hab, hty, hdes⟩, hc, _⟩, _, _, heq⟩ := Ampd.Sui.handleWorkerSet_sent ht
    simp only [Ampd.ExecTx.mk.injEq, Ampd.TxMsg.vote.injEq] at heq
    obtain ⟨⟨V', ev⟩, hv, hdes⟩ := Option.bind_eq_some_iff.mp hdes
    unfold Ampd.Sui.readWorkerSetPoll at hdes
    split at hdes
    · rename_i tx i ops pm hev
      simp only at hev
      subst hev
      have := Ampd.Sui.readPoll_some hdes
      have hV : V' = V := by rw [← show p.contract = V from hc]; exact this.2.2.2.2.1.symm
      subst hV
      exact ⟨ab, tx, i, ops, pm, hab, ⟨hty, hv⟩, by rw [← this.2.1]; exact heq.2.2.1.symm⟩
    · simp at hdes

/-- what the handler for signing does depends on what it reads only -/
theorem handle_view {A : Type} {v : View A} {R' : Ampd.Signing.Reader} {M : Addr} {x : Ampd.Abci A} {ev : Multisig.Event}
    (h : v.ShowsSigning x M ev) (H : Ampd.Signing.Handler) (E : Ampd.Signing.Env) :
    Ampd.Signing.handle (fun x => (v.multisig x).bind (Ampd.Signing.readSigning R')) H E (.abci x) =
      Ampd.Signing.handle (Ampd.Signing.readSigning R') H E (.abci (Ampd.Signing.announced M ev)) := by
  have ht : ∀ ty, Ampd.tryFrom ty (fun x => (v.multisig x).bind (Ampd.Signing.readSigning R')) (.abci x) =
      Ampd.tryFrom ty (Ampd.Signing.readSigning R') (.abci (Ampd.Signing.announced M ev)) := by
    intro ty
    unfold Ampd.tryFrom Ampd.Signing.announced
    dsimp only
    rw [h.1, h.2]
    rfl
  unfold Ampd.Signing.handle
  rw [ht]

/-- a poll id is announced once -/
theorem announced_once {txs : List Tx} {V : Addr} {vc : VV.Config} (hV : setup V = some (.verifier vc)) (hv : vc.Valid)
    {e e' : Entry} (he : e ∈ log P setup txs) (he' : e' ∈ log P setup txs) (ht : e.p.target = V) (ht' : e'.p.target = V)
    {c c' : VV.Call} {r r' : VV.Resp} (ha : e.act = .verifier c r) (ha' : e'.act = .verifier c' r')
    {pm pm' : VV.PollMeta} (hs : VV.startedMeta r = some pm) (hs' : VV.startedMeta r' = some pm')
    (hid : pm.pollId = pm'.pollId) : r = r' := by
  have hi := inv P setup txs
  have hmem : ∀ (e : Entry) c r, e ∈ log P setup txs → e.p.target = V → e.act = .verifier c r →
      (c, r) ∈ VV.history P.H vc (verifierCalls V (log P setup txs)) := by
    intro e c r he ht ha
    rw [← verifierLog_eq hi hV]
    unfold verifierLog
    refine List.mem_filterMap.mpr ⟨e.act, ?_, by rw [ha]⟩
    obtain ⟨u, v, huv⟩ := List.append_of_mem he
    rw [huv, show u ++ e :: v = u ++ ([e] ++ v) by simp]
    simp only [actsAt_append, actsAt_self _ e ht]
    simp
  have := Ampd.started_unique P.H vc hv _ (hmem e c r he ht ha) (hmem e' c' r' he' ht' ha') hs hs' hid
  exact (Prod.mk.inj this).2

/-! ### C92 -/

/-- C92, verification: let a poll about `m` be open after `txs₁`, announced in block `b` of the chain that the daemons
read.  If a quorum `Q` of its workers operate the daemon, then `m` is reported as verified, whatever else anyone
sends. -/
theorem C92_verified {R A : Type} (P : Params) (setup : Setup) (txs₁ txs₂ : List Tx) (ho : InOrder (txs₁ ++ txs₂))
    (V : Addr) (vc : VV.Config) (hV : setup V = some (.verifier vc)) (hv : vc.Valid) (m : Message)
    (ws : List Registry.Worker) (confs : List VV.TxConfirmation) (pm : VV.PollMeta) (cf : VV.TxConfirmation)
    (hopen : PollOpened P (log P setup txs₁) V vc m ws confs pm cf) (s : Source) (hreads : s.Reads V confs pm cf)
    (v : View A) (W : Ampd.World R (Ampd.Abci A)) (hW : Authentic v W V (log P setup (txs₁ ++ txs₂)))
    (b : Nat) (r : R) (x : Ampd.Abci A) (hr : r ∈ Ampd.contents (W.chain b)) (hd : W.decode r = some x)
    (hx : v.Shows x V (.messagesPollStarted confs pm))
    (Q : List Addr) (hnd : Q.Nodup) (hQ : ∀ a ∈ Q, ∃ w ∈ ws, w.address = a)
    (hquorum : ws.length * vc.threshold.num ≤ Q.length * vc.threshold.den)
    (hrun : ∀ a ∈ Q, ∃ cfg l outcome rs p, Operates P setup txs₁ txs₂ s V a confs pm cf v W b cfg l outcome rs p) :
    askVerifier P (worldAfter P setup (txs₁ ++ txs₂)) V [m] = some [(m.ccId, true)] := by
  refine C89_verified P setup txs₁ txs₂ ho V vc hV hv m ws confs pm cf hopen s hreads Q hnd hQ hquorum ?_ ?_
  · intro a ha
    obtain ⟨cfg, l, outcome, rs, p, hop⟩ := hrun a ha
    obtain ⟨o, ho1, ho2, ho3, ho4⟩ := Ampd.C92_answered W outcome cfg l rs p hop.sane hop.genuine b hop.completed r _ hr hd
    obtain ⟨latest, hh, hlate⟩ := hop.shown x o hx ho2 ho3
    refine ⟨latest, o.sent, hh, hlate, ?_⟩
    intro t ht
    -- what the handler sends is a ballot of the worker for the poll
    obtain ⟨vs, rfl⟩ : ∃ vs, t = ⟨a, V, .vote pm.pollId vs⟩ := by
      cases s with
      | evm D L R decodeLog chain saw onChain =>
        obtain ⟨E, p', dm', _, _, h2, _, _, _, hs⟩ := hh
        rw [hs] at ht
        obtain ⟨p1, f, ⟨⟨ab, hab, _, hdes⟩, _⟩, _, rfl⟩ := Ampd.Evm.handleMessages_sent ht
        simp only [Ampd.Event.abci.injEq] at hab
        subst hab
        have := Ampd.Evm.readPoll_some (show Ampd.Evm.readPoll L R V pm _ = some p1 from hdes)
        exact ⟨_, by rw [this.2.1]⟩
      | sui J L R json saw onChain =>
        obtain ⟨E, p', dm', _, _, h2, _, _, hs⟩ := hh
        rw [hs] at ht
        obtain ⟨p1, f, ⟨⟨ab, hab, _, hdes⟩, _⟩, _, rfl⟩ := Ampd.Sui.handleMessages_sent ht
        simp only [Ampd.Event.abci.injEq] at hab
        subst hab
        have := Ampd.Sui.readPoll_some (show Ampd.Sui.readPoll R V pm _ = some p1 from hdes)
        exact ⟨_, by rw [this.2.1]⟩
    have hans : (⟨a, V, .vote pm.pollId vs⟩ : Ampd.ExecTx) ∈ p.answers l :=
      List.mem_flatMap.mpr ⟨o, ho1, by rw [Ampd.queued_of_succeeded ho3]; exact ht⟩
    obtain ⟨tx, htx, hmem⟩ := ho4 _ ht (hop.caught vs hans)
    exact hop.included tx htx vs hmem
  · intro a ha vs hvoted
    obtain ⟨cfg, l, outcome, rs, p, hop⟩ := hrun a ha
    obtain ⟨f, p', hg, tx, htx, hmem⟩ := hop.own vs hvoted
    obtain ⟨h, hh, e, hgiven, o, hx, hsucc, hsent⟩ := Ampd.C92_origin W outcome cfg f p' hg tx htx _ hmem
    obtain ⟨l₁, e0, l₂, c0, r0, ms, hl, ht0, ha0, _, _, _, _, _, hev0, _⟩ := hopen
    have he0 : e0 ∈ log P setup (txs₁ ++ txs₂) := by
      have : ∃ l', log P setup (txs₁ ++ txs₂) = log P setup txs₁ ++ l' := by
        unfold log
        rw [outs_append, List.flatMap_append]
        exact ⟨_, rfl⟩
      obtain ⟨l', h⟩ := this
      rw [h, hl]
      simp
    have hs0 : VV.startedMeta r0 = some pm := by simp [VV.startedMeta, hev0]
    -- the event that was answered is the announcement
    have key : ∀ x ev pm', e = .abci x → v.Shows x V ev → pm'.pollId = pm.pollId →
        (∀ r', r'.event = some ev → VV.startedMeta r' = some pm') → ev = .messagesPollStarted confs pm := by
      rintro x ev pm' rfl hx1 hid hx2
      obtain ⟨b', y, hy, hdy⟩ := given_mem hgiven
      obtain ⟨e1, he1, c1, r1, ht1, ha1, hev1⟩ := hW b' y x ev hy hdy hx1.2
      have := announced_once hV hv he1 he0 ht1 ht0 ha1 ha0 (hx2 r1 hev1) hs0 hid
      subst this
      rw [hev1] at hev0
      exact Option.some.inj hev0
    by_cases hlab : h.1 = l
    · rw [hlab] at hx
      obtain ⟨x, confs', pm', rfl, hx1, hid⟩ := messageHandler_ballot (hop.handler e o hx) hsent
      have := key x _ pm' rfl hx1 hid (fun r' h => by simp [VV.startedMeta, h])
      rw [this] at hx1
      obtain ⟨latest, hh', _⟩ := hop.shown x o hx1 hx hsucc
      exact ⟨latest, o.sent, hh', hsent⟩
    · rcases hop.others h.1 hlab e o hx with hset | hne
      · obtain ⟨x, tx', i', ops', pm', rfl, hx1, hid⟩ := setHandler_ballot hset hsent
        have := key x _ pm' rfl hx1 hid (fun r' h => by simp [VV.startedMeta, h])
        simp at this
      · exact absurd rfl (hne _ hsent)

/-- C92, signing: let a signing session of the prover at `Q` be announced, in block `b` of the chain that the daemons
read.  If members whose weight reaches the threshold operate the daemon, then `GetProof` returns the batch with a payload
for the destination chain, whatever else anyone sends. -/
theorem C92_proved {R A : Type} (P : Params) (setup : Setup) (txs₁ txs₂ : List Tx) (Q : Addr) (pc : Prover.Config)
    (sv : Str) (kt : Multisig.KeyType) (hQ : setup Q = some (.prover pc sv kt)) (n d : Nat)
    (hth : Std.MajorityThreshold.ofPair n d = .ok pc.signingThreshold) (mc : Multisig.Config)
    (hM : setup pc.multisig = some (.multisig mc))
    (hdis : SetsDistinctAt P (log P setup (txs₁ ++ txs₂)) pc.multisig) (height : Nat)
    (hrec : RecordsAt P setup (txs₁ ++ txs₂) mc.rewards height 2) (sid : Nat) (ws : WorkerSet)
    (keys : List (Addr × Multisig.PublicKey)) (digest : Encoding.Bytes) (chain : ChainName)
    (hann : AnnouncedAt (log P setup txs₁) pc.multisig sid (Prover.workerSetId P.X ws) keys digest chain)
    (hreg : registeredSet (worldAfter P setup txs₁) pc.multisig (Prover.workerSetId P.X ws) = some ws)
    (hown : shownBatch (worldAfter P setup txs₁) Q sid ≠ none)
    (hkeys : ∀ e ∈ ws.signers, Nameable P.X pc.encoder e.2.pubKey)
    (hc : ChainIdFits pc.encoder pc.destinationChainId)
    (hsize : ∀ b, shownBatch (worldAfter P setup (txs₁ ++ txs₂)) Q sid = some b →
      1000 * (1 + b.data.commands.length + ws.signers.length) + dataSize b.data < 2 ^ 31)
    (S : List Addr) (hS : S ≠ []) (hq : ws.threshold ≤ weightIn ws S)
    (hb : IsBytes digest) (R' : Ampd.Signing.Reader) (hR : R'.Plain digest)
    (hpts : ∀ p ∈ keys, (R'.key p.2).isSome)
    (v : View A) (W : Ampd.World R (Ampd.Abci A)) (b : Nat) (r : R) (x : Ampd.Abci A)
    (hr : r ∈ Ampd.contents (W.chain b)) (hd : W.decode r = some x)
    (hx : v.ShowsSigning x pc.multisig (.signingStarted sid (Prover.workerSetId P.X ws) keys digest chain))
    (hrun : ∀ a ∈ S, ∃ cfg l outcome rs p, OperatesSigner P setup txs₁ txs₂ R' pc.multisig a sid
      (Prover.workerSetId P.X ws) keys digest chain v W b cfg l outcome rs p) :
    ∃ b payload, shownBatch (worldAfter P setup (txs₁ ++ txs₂)) Q sid = some b ∧
      askProof P (worldAfter P setup (txs₁ ++ txs₂)) Q sid = .ok ⟨b.messageIds, b.data, .completed payload⟩ := by
  -- what each of them answers to the announcement
  have key : ∀ a ∈ S, ∃ E : Ampd.Signing.Env, (∃ pk k sig, (a, pk) ∈ keys ∧ R'.key pk = some k ∧
      E.sign pc.multisig digest k = some (Multisig.Signature.bytes sig) ∧ Multisig.Valid P.C digest pk sig) ∧
      ∀ t ∈ (Ampd.Signing.handle (Ampd.Signing.readSigning R') ⟨a, pc.multisig⟩ E
        (.abci (Ampd.Signing.announced pc.multisig
          (.signingStarted sid (Prover.workerSetId P.X ws) keys digest chain)))).sent,
        Got P setup txs₁ txs₂ t.sender t.contract (daemonMsg t.msg) := by
    intro a ha
    obtain ⟨cfg, l, outcome, rs, p, hop⟩ := hrun a ha
    obtain ⟨o, ho1, ho2, ho3, ho4⟩ := Ampd.C92_answered W outcome cfg l rs p hop.sane hop.genuine b hop.completed r x hr hd
    obtain ⟨E, pk, k, sig, rfl, h1, h2, h3, h4⟩ := hop.signs x o hx ho2 ho3
    rw [handle_view hx] at ho1 ho3 ho4
    refine ⟨E, ⟨pk, k, sig, h1, h2, h3, h4⟩, ?_⟩
    intro t ht
    obtain ⟨id, wid, keys', msg, chain', pk', k', sig', _, hev, _, _, _, rfl, _⟩ := Ampd.Signing.C77_submits_only R'
      ⟨a, pc.multisig⟩ E pc.multisig _ t (by
        intro id wid keys msg chain h
        simp only [Multisig.Event.signingStarted.injEq] at h
        rw [← h.2.2.2.1]
        exact ⟨hb, hR⟩) ht
    simp only [Multisig.Event.signingStarted.injEq] at hev
    rw [← hev.1] at ht ⊢
    have hans : (⟨a, pc.multisig, .submitSignature sid sig'⟩ : Ampd.ExecTx) ∈ p.answers l :=
      List.mem_flatMap.mpr ⟨_, ho1, by rw [Ampd.queued_of_succeeded ho3]; exact ht⟩
    obtain ⟨tx, htx, hmem⟩ := ho4 _ ht (hop.caught sig' hans)
    exact hop.included tx htx sig' hmem
  classical
  let E : Addr → Ampd.Signing.Env := fun a => if ha : a ∈ S then (key a ha).choose else ⟨fun _ _ _ => none, false⟩
  have hE : ∀ a (ha : a ∈ S), E a = (key a ha).choose := fun a ha => dif_pos ha
  refine C89_proved P setup txs₁ txs₂ Q pc sv kt hQ n d hth mc hM hdis height hrec sid ws keys digest chain hann hreg hown
    hkeys hc hsize S hS hq hb R' hR hpts E ?_ ?_
  · intro a ha
    rw [hE a ha]
    exact (key a ha).choose_spec.1
  · intro a ha
    rw [hE a ha]
    exact (key a ha).choose_spec.2

end Amp.Chain
