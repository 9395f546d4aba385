import Verif.Wire.RotateSpec
import Verif.Wire.RequestProps
import Verif.Chain.AskSetLemmas

/-!
# C115: rotating worker sets, in texts and bytes
-/

namespace Amp.Wire

open Amp.Chain (Params Entry)
open Amp.Multisig (WorkerSet)
open Amp.Prover (IsBatch SetOf membershipChanges dataDigest IsOperators)
open Amp.Std (Operators)

variable {G : Texture} {P : Params}

/-! ### Helper lemmas -/

/-- the question for the worker set of a prover, as text -/
theorem asked_current (hG : Sound G) (hX : Octets P.X) (h4 : FourIds P.X) (ts : List TextStep) (hb : ∀ s ∈ ts, StepInRange s) (Q : Addr)
    (ws : WorkerSet) (h : Chain.currentSet (textDeployedWorld G P ts) Q = some ws) :
    ∃ text, query G P (textDeployedWorld G P ts) Q ((UserQuestion.currentSet).json G.T).render = some text ∧
      UserQuestion.currentSet.readText G text = some (.set ws) := by
  have key := C111_answer_partial hG hX h4 ts hb Q .currentSet trivial (by intro n x; simp)
  have ht : UserQuestion.currentSet.truth G.T P (textDeployedWorld G P ts) Q = some (.set ws) := by
    unfold Chain.currentSet at h
    unfold UserQuestion.truth
    split at h
    · rename_i s _ _ hs
      rw [hs]
      simp only
      unfold Prover.getWorkerSet at h
      rw [h]
      rfl
    · cases h
  rw [ht, Option.map_some] at key
  obtain ⟨text, h1, h2⟩ := Option.map_eq_some_iff.mp key
  exact ⟨text, h1, h2⟩

/-- the question for a worker set registered at a multisig contract, as text -/
theorem asked_registered (hG : Sound G) (hX : Octets P.X) (h4 : FourIds P.X) (ts : List TextStep) (hb : ∀ s ∈ ts, StepInRange s)
    (M : Addr) (wid : Str) (ws : WorkerSet) (h : Chain.registeredSet (textDeployedWorld G P ts) M wid = some ws) :
    ∃ text, query G P (textDeployedWorld G P ts) M ((UserQuestion.registeredSet wid).json G.T).render = some text ∧
      (UserQuestion.registeredSet wid).readText G text = some (.set ws) := by
  have key := C111_answer_partial hG hX h4 ts hb M (.registeredSet wid) trivial (by intro n x; simp)
  have ht : (UserQuestion.registeredSet wid).truth G.T P (textDeployedWorld G P ts) M = some (.set ws) := by
    unfold Chain.registeredSet at h
    unfold UserQuestion.truth
    split at h
    · rename_i s hs
      rw [hs]
      simp only
      unfold Multisig.getWorkerSet at h
      rw [h]
      rfl
    · cases h
  rw [ht, Option.map_some] at key
  obtain ⟨text, h1, h2⟩ := Option.map_eq_some_iff.mp key
  exact ⟨text, h1, h2⟩

/-- a transaction with one text for a prover -/
theorem sends_text {ts : List TextStep} {t : TextTx} (ha : TextApart G (ts ++ [.tx t])) {Q : Addr} {pc : Prover.Config} {sv : Str}
    {kt : Multisig.KeyType} (hQ : textSetup G ts Q = some (.prover pc sv kt)) {funds : List Registry.Coin} {text : Str}
    (hmsgs : t.msgs = [(Q, funds, text)]) {m : Prover.Msg} (hread : readFor G .prover text = some (.prover m)) (hgas : 1 ≤ t.gas) :
    Chain.Sends (textSetup G ts) (meaning G (textSetup G ts) t) Q m := by
  refine ⟨⟨funds, ?_⟩, ?_, hgas⟩
  · unfold meaning
    rw [hmsgs]
    simp only [List.map_cons, List.map_nil]
    congr 3
    unfold meant
    rw [hQ]
    change (match readFor G .prover text with | some m => m | none => noise .prover) = _
    rw [hread]
  · change textSetup G ts t.sender = none
    by_contra h
    refine (ha t (by simp) t.sender ?_).1 rfl
    cases hk : textSetup G ts t.sender with
    | none => exact absurd hk h
    | some k => rw [textSetup_mono ts _ hk]; simp

/-- what a receipt shows of a handover when its logs are decoded -/
theorem shows_of_transferred {K : Ampd.Evm.LogLib} {gateway : Encoding.Bytes} {r : Ampd.Evm.Receipt Ampd.Evm.RawLog}
    {m : Ampd.Evm.WorkerSet} (hw : ∀ l ∈ r.logs, Ampd.Evm.Words l.content)
    (h : Ampd.Evm.Transferred (Ampd.Evm.decodeLog K) gateway r m) : Ampd.Evm.ShowsTransfer K.keccak gateway r m := by
  obtain ⟨h0, l, hl, g1, g2, g3, data, g4, g5⟩ := h
  exact ⟨h0, l, hl, g1, g2, g3, data, Ampd.Evm.C110_says_transfer K l.content (hw l hl) data g4, g5⟩

theorem readAll_id {α : Type} {f : α → Option α} {l : List α} (h : ∀ x ∈ l, f x = some x) : Ampd.readAll f l = some l := by
  induction l with
  | nil => rfl
  | cons x t ih =>
    simp only [Ampd.readAll, h x (List.mem_cons_self ..), ih (fun y hy => h y (List.mem_cons_of_mem _ hy))]

/-- what installing a set means in texts -/
theorem installs_text (hG : Sound G) (hX : Octets P.X) (h4 : FourIds P.X) (ts : List TextStep) (t : TextTx)
    (hb : ∀ s ∈ ts ++ [.tx t], StepInRange s) (ha : TextApart G (ts ++ [.tx t])) {Q : Addr} {pc : Prover.Config} {ws : WorkerSet}
    (h : Chain.Installs P (Chain.worldAfter P (textSetup G ts) (Chain.succeeded P (steps G ts))) (meaning G (textSetup G ts) t) Q pc ws) :
    (∃ x, execText G P (textDeployedWorld G P ts) t = .ok x) ∧
    (∃ reply, query G P (textDeployedWorld G P (ts ++ [.tx t])) Q (UserQuestion.currentSet.json G.T).render = some reply ∧
      UserQuestion.currentSet.readText G reply = some (.set ws)) ∧
    (∃ reply, query G P (textDeployedWorld G P (ts ++ [.tx t])) pc.multisig
        ((UserQuestion.registeredSet (Prover.workerSetId P.X ws)).json G.T).render = some reply ∧
      (UserQuestion.registeredSet (Prover.workerSetId P.X ws)).readText G reply = some (.set ws)) ∧
    Chain.pendingSet (textDeployedWorld G P (ts ++ [.tx t])) Q = none := by
  have hbt : ∀ s ∈ ts, StepInRange s := fun s hs => hb s (List.mem_append_left _ hs)
  have hat := textApart_prefix ha
  have hin : InRange t := hb (.tx t) (by simp)
  obtain ⟨w', es, hx, h1, h2, h3⟩ := h
  obtain ⟨-, -, v1, -⟩ := deployed_snoc hG hX.keccak ts t hb ha hx
  simp only at v1
  rw [← v1] at h1 h2 h3
  exact ⟨⟨_, (exec_after hG hX.keccak ts hbt hat t hin).mpr hx⟩, asked_current hG hX h4 _ hb Q ws h1,
    asked_registered hG hX h4 _ hb _ _ ws h3, h2⟩

/-- the poll about a worker set is stored -/
theorem set_poll {setup : Chain.Setup} {txs : List Chain.Tx} {V : Addr} {vc : VV.Config} (hV : setup V = some (.verifier vc))
    (hvalid : vc.Valid) {o : Operators} {ws : List Registry.Worker} {tx : Str} {n : Nat} {pm : VV.PollMeta}
    (hopen : LastSetPoll P (Chain.log P setup txs) V o ws tx n pm) :
    ∃ sp, (VV.stateAfter P.H vc (Chain.verifierCalls V (Chain.log P setup txs))).polls pm.pollId = some sp ∧
      (∀ w ∈ ws, ∃ n, (w.address, n) ∈ sp.poll.voters) ∧ sp.poll.expiresAt = pm.expiresAt ∧ sp.poll.pollSize = 1 := by
  obtain ⟨l₁, e, l₂, c, r, mid, hl', ht, hact, hm, hws, hev, hlast⟩ := hopen
  have hi := Chain.inv P setup txs
  subst ht
  obtain ⟨s', hx⟩ := Chain.verifier_exec hi hl' hV hact
  have hsplit : Chain.verifierCalls e.p.target (Chain.log P setup txs) =
      Chain.verifierCalls e.p.target l₁ ++ c :: Chain.verifierCalls e.p.target l₂ := by
    rw [hl', show l₁ ++ e :: l₂ = l₁ ++ ([e] ++ l₂) by simp]
    simp only [Chain.verifierCalls, Chain.actsAt_append, Chain.actsAt_self _ e rfl, hact, List.filterMap_append]
    rfl
  have hx' := hx
  simp only [VV.exec, hm] at hx'
  obtain ⟨-, ws', snap, tx', n', h1, h2, -, h4, h5⟩ := VV.verifyWorkerSet_ok hx'
  rw [h4] at hev
  simp only [Option.some.injEq, VV.Event.workerSetPollStarted.injEq] at hev
  obtain ⟨-, -, -, rfl⟩ := hev
  rw [hws] at h1
  simp only [Option.some.injEq] at h1
  subst h1
  obtain ⟨sp1, f1, f2, f3, f4, f5⟩ := VV.opened_persists P.H hvalid _ (Chain.verifierCalls e.p.target l₂) hx
    (id := (VV.stateAfter P.H vc (Chain.verifierCalls e.p.target l₁)).lastPollId + 1) (by rw [h5]; exact KV.set_self _ _ _)
  refine ⟨sp1, by rw [hsplit]; exact f1, ?_, by rw [f4]; rfl, by rw [f5]; rfl⟩
  intro w hw
  rw [f2, VV.voters_new, (Std.Snapshot.new_ok h2).2.2.2.2]
  refine ⟨1, (Prover.mem_ofList (l := ws.map (fun w => (w.address, 1))) ?_ _).mpr
    (List.mem_map_of_mem (f := fun w => (Registry.Worker.address w, 1)) hw)⟩
  intro e he e' he' h
  obtain ⟨w, _, rfl⟩ := List.mem_map.mp he
  obtain ⟨w', _, rfl⟩ := List.mem_map.mp he'
  simp only at h
  rw [h]

/-! ### The property -/

/-- C115, the first set: whoever sends a prover without worker set a text that asks to update it installs the active workers with their
registered keys: the prover and the multisig contract answer the texts of questions for this set with texts that read as it. -/
theorem C115_first (hG : Sound G) (hX : Octets P.X) (h4 : FourIds P.X) (ts : List TextStep) (t : TextTx)
    (hb : ∀ s ∈ ts ++ [.tx t], StepInRange s) (ha : TextApart G (ts ++ [.tx t])) (Q : Addr) (pc : Prover.Config) (sv : Str)
    (kt : Multisig.KeyType) (hQ : textSetup G ts Q = some (.prover pc sv kt)) (mc : Multisig.Config)
    (hM : textSetup G ts pc.multisig = some (.multisig mc)) (funds : List Registry.Coin) (text : Str)
    (hmsgs : t.msgs = [(Q, funds, text)]) (hread : readFor G .prover text = some (.prover .updateWorkerSet)) (hgas : 1 ≤ t.gas)
    (hnone : Chain.currentSet (textDeployedWorld G P ts) Q = none) (workers : List Registry.Worker)
    (hw : Chain.askWorkers (textDeployedWorld G P ts) pc.serviceRegistry sv pc.chainName = some workers) (hne : workers ≠ [])
    (hlen : workers.length ≤ u256Max)
    (hk : ∀ x ∈ workers, ∃ k, Chain.askKey (textDeployedWorld G P ts) pc.multisig kt x.address = .ok k) :
    ∃ ws, SetOf pc.signingThreshold (Chain.askKey (textDeployedWorld G P ts) pc.multisig kt) t.block.height workers ws ∧
      (∃ x, execText G P (textDeployedWorld G P ts) t = .ok x) ∧
      (∃ reply, query G P (textDeployedWorld G P (ts ++ [.tx t])) Q (UserQuestion.currentSet.json G.T).render = some reply ∧
        UserQuestion.currentSet.readText G reply = some (.set ws)) ∧
      (∃ reply, query G P (textDeployedWorld G P (ts ++ [.tx t])) pc.multisig
          ((UserQuestion.registeredSet (Prover.workerSetId P.X ws)).json G.T).render = some reply ∧
        (UserQuestion.registeredSet (Prover.workerSetId P.X ws)).readText G reply = some (.set ws)) := by
  have hbt : ∀ s ∈ ts, StepInRange s := fun s hs => hb s (List.mem_append_left _ hs)
  have hat := textApart_prefix ha
  have hin : InRange t := hb (.tx t) (by simp)
  obtain ⟨w1, -, -, -, -⟩ := C105_history (P := P) hG hX.keccak ts hbt hat
  obtain ⟨-, -, -, hmaj, -⟩ := C104_setup (C105_text (P := P) hG hX.keccak ts hbt).2.2.2
  rw [w1] at hnone hw hk
  obtain ⟨ws, h1, h2⟩ := Chain.C86_first P (textSetup G ts) (Chain.succeeded P (steps G ts)) Q pc sv kt hQ _ _
    (majority_ofPair (hmaj Q pc sv kt hQ)) mc hM (meaning G (textSetup G ts) t) (sends_text ha hQ hmsgs hread hgas)
    hin.height hnone workers hw hne hlen hk
  obtain ⟨g1, g2, g3, -⟩ := installs_text hG hX h4 ts t hb ha h2
  exact ⟨ws, by rw [w1]; exact h1, g1, g2, g3⟩

/-- C115, the handover: when enough workers changed, whoever sends the prover a text that asks to update its worker set gets a signing
session: the multisig contract writes the raw event of the session, for the digest of a batch that hands over to the active workers; the
prover answers the text of a question for the proof with a text that shows this batch, and the new set is pending. -/
theorem C115_handover (hG : Sound G) (hX : Octets P.X) (h4 : FourIds P.X) (ts : List TextStep) (t : TextTx)
    (hb : ∀ s ∈ ts ++ [.tx t], StepInRange s) (ha : TextApart G (ts ++ [.tx t])) (Q : Addr) (pc : Prover.Config) (sv : Str)
    (kt : Multisig.KeyType) (hQ : textSetup G ts Q = some (.prover pc sv kt)) (mc : Multisig.Config)
    (hM : textSetup G ts pc.multisig = some (.multisig mc))
    (hd : Chain.SetsDistinctAt P (textDeployedLog G P ts) pc.multisig) (hroom : (textDeployedLog G P ts).length < u64Max)
    (funds : List Registry.Coin) (text : Str) (hmsgs : t.msgs = [(Q, funds, text)])
    (hread : readFor G .prover text = some (.prover .updateWorkerSet)) (hgas : 1 ≤ t.gas) (cur : WorkerSet)
    (hcur : Chain.currentSet (textDeployedWorld G P ts) Q = some cur)
    (hallow : Chain.MayAsk (textDeployedWorld G P ts) pc.multisig Q) (workers : List Registry.Worker)
    (hbuild : Chain.Buildable P (textDeployedWorld G P ts) Q pc sv kt t.block.height [] cur workers)
    (hdiff : ∀ new, SetOf pc.signingThreshold (Chain.askKey (textDeployedWorld G P ts) pc.multisig kt) t.block.height workers new →
      pc.diffThreshold < membershipChanges new cur) :
    ∃ new b sid digest reply, (∃ x, execText G P (textDeployedWorld G P ts) t = .ok x) ∧
      SetOf pc.signingThreshold (Chain.askKey (textDeployedWorld G P ts) pc.multisig kt) t.block.height workers new ∧
      IsBatch P.X pc (some new) [] b ∧ dataDigest P.X pc.encoder b.data = .ok digest ∧
      publishMultisig G.T pc.multisig (.signingStarted sid (Prover.workerSetId P.X cur) cur.pubKeys digest pc.chainName) ∈
        eventStream G.T (textDeployedLog G P (ts ++ [.tx t])) ∧
      query G P (textDeployedWorld G P (ts ++ [.tx t])) Q ((UserQuestion.proof sid).json G.T).render = some reply ∧
      (UserQuestion.proof sid).readText G reply = some (.proof sid ⟨b.messageIds, b.data, .pending⟩) ∧
      Chain.pendingSet (textDeployedWorld G P (ts ++ [.tx t])) Q = some new := by
  have hbt : ∀ s ∈ ts, StepInRange s := fun s hs => hb s (List.mem_append_left _ hs)
  have hat := textApart_prefix ha
  have hin : InRange t := hb (.tx t) (by simp)
  obtain ⟨w1, w2, -, -, -⟩ := C105_history (P := P) hG hX.keccak ts hbt hat
  obtain ⟨-, -, -, hmaj, -⟩ := C104_setup (C105_text (P := P) hG hX.keccak ts hbt).2.2.2
  rw [w1] at hcur hallow hbuild hdiff
  obtain ⟨new, b, h1, h2, ⟨w', es, sid, digest, hx, ⟨e, he, c, r, g1, g2, g3⟩, h5, h6, h7, h8, -⟩, w'', es', hx', h9⟩ :=
    Chain.C86_requested P (textSetup G ts) (Chain.succeeded P (steps G ts)) Q pc sv kt hQ _ _ (majority_ofPair (hmaj Q pc sv kt hQ))
      mc hM (setsDistinct_blind w2 hd) (by
        have := congrArg List.length w2
        simp only [List.length_map] at this
        omega) (meaning G (textSetup G ts) t) (sends_text ha hQ hmsgs hread hgas) cur hcur hallow workers hbuild hdiff
  rw [hx] at hx'
  simp only [Except.ok.injEq, Prod.mk.injEq] at hx'
  rw [← hx'.1] at h9
  obtain ⟨hset, -, v1, v2⟩ := deployed_snoc hG hX.keccak ts t hb ha hx
  simp only at v1 v2
  obtain ⟨e', he', hbe⟩ : ∃ e' ∈ textDeployedLog G P (ts ++ [.tx t]), e'.blind = e.blind := by
    have : e.blind ∈ (textDeployedLog G P (ts ++ [.tx t])).map Entry.blind := by
      rw [v2]; exact List.mem_map_of_mem (List.mem_append_right _ he)
    exact List.mem_map.mp this
  obtain ⟨b1, b2⟩ := Chain.blind_multisig hbe g2
  have hann : Chain.AnnouncedAt (textDeployedLog G P (ts ++ [.tx t])) pc.multisig sid (Prover.workerSetId P.X cur) cur.pubKeys digest
      pc.chainName := ⟨e', he', c, r, by rw [b1]; exact g1, b2, g3⟩
  have hfits := multisig_event_fits hG hX.keccak _ hb ha (M := pc.multisig) (mc := mc) (by rw [hset]; exact hM)
    (announced_blind (C105_history (P := P) hG hX.keccak _ hb ha).2.1 hann)
  rw [← v1] at h6 h9
  obtain ⟨reply, q1, q2⟩ := asked_proof hG hX h4 _ hb Q sid hfits.1 _ h6
  refine ⟨new, b, sid, digest, reply, ⟨_, (exec_after hG hX.keccak ts hbt hat t hin).mpr hx⟩, by rw [w1]; exact h1, h2, h5, ?_, q1, q2, h9⟩
  unfold eventStream
  refine List.mem_flatMap.mpr ⟨e', he', ?_⟩
  rw [b2, b1, g1]
  exact List.mem_map_of_mem g3

/-- C115, confirmation: once the verifier answers that the operators by which the destination chain knows the pending set are
verified, whoever sends the prover a text that asks to confirm the worker set installs it. -/
theorem C115_confirmed (hG : Sound G) (hX : Octets P.X) (h4 : FourIds P.X) (ts : List TextStep) (t : TextTx)
    (hb : ∀ s ∈ ts ++ [.tx t], StepInRange s) (ha : TextApart G (ts ++ [.tx t])) (Q : Addr) (pc : Prover.Config) (sv : Str)
    (kt : Multisig.KeyType) (hQ : textSetup G ts Q = some (.prover pc sv kt)) (mc : Multisig.Config)
    (hM : textSetup G ts pc.multisig = some (.multisig mc)) (funds : List Registry.Coin) (text : Str)
    (hmsgs : t.msgs = [(Q, funds, text)]) (hread : readFor G .prover text = some (.prover .confirmWorkerSet)) (hgas : 1 ≤ t.gas)
    (ws : WorkerSet) (hp : Chain.pendingSet (textDeployedWorld G P ts) Q = some ws) (hc : ws.createdAt ≤ u64Max)
    (o : Operators) (ho : IsOperators P.X pc.encoder ws o)
    (hv : Chain.askSet P (textDeployedWorld G P ts) pc.votingVerifier o = .ok true) :
    (∃ x, execText G P (textDeployedWorld G P ts) t = .ok x) ∧
    (∃ reply, query G P (textDeployedWorld G P (ts ++ [.tx t])) Q (UserQuestion.currentSet.json G.T).render = some reply ∧
      UserQuestion.currentSet.readText G reply = some (.set ws)) ∧
    (∃ reply, query G P (textDeployedWorld G P (ts ++ [.tx t])) pc.multisig
        ((UserQuestion.registeredSet (Prover.workerSetId P.X ws)).json G.T).render = some reply ∧
      (UserQuestion.registeredSet (Prover.workerSetId P.X ws)).readText G reply = some (.set ws)) ∧
    Chain.pendingSet (textDeployedWorld G P (ts ++ [.tx t])) Q = none := by
  have hbt : ∀ s ∈ ts, StepInRange s := fun s hs => hb s (List.mem_append_left _ hs)
  have hat := textApart_prefix ha
  obtain ⟨w1, -, -, -, -⟩ := C105_history (P := P) hG hX.keccak ts hbt hat
  rw [w1] at hp hv
  exact installs_text hG hX h4 ts t hb ha (Chain.C86_confirmed P (textSetup G ts) (Chain.succeeded P (steps G ts)) Q pc sv kt hQ mc hM
    (meaning G (textSetup G ts) t) (sends_text ha hQ hmsgs hread hgas) ws hp hc o ho hv)

/-- C115, asking: whoever sends the verifier a text that asks to confirm a worker set that is not verified yet, with a readable id,
opens a poll about it, among the active workers of that moment; the verifier writes the raw event of the poll. -/
theorem C115_asked (hG : Sound G) (hX : ∀ b, IsBytes (P.X.keccak b)) (ts : List TextStep) (t : TextTx)
    (hb : ∀ s ∈ ts ++ [.tx t], StepInRange s) (ha : TextApart G (ts ++ [.tx t])) (V : Addr) (vc : VV.Config)
    (hV : textSetup G ts V = some (.verifier vc)) (hroom : (textDeployedLog G P ts).length < u64Max) (mid : Str) (o : Operators)
    (tx : Str) (n : Nat) (hid : VV.parseMessageId mid = some (tx, n))
    (hask : Chain.askSet P (textDeployedWorld G P ts) V o = .ok false) (ws : List Registry.Worker)
    (hws : Chain.askWorkers (textDeployedWorld G P ts) vc.serviceRegistry vc.serviceName vc.sourceChain = some ws)
    (hne : ws ≠ []) (hsz : ws.length ≤ u256Max) (funds : List Registry.Coin) (text : Str) (hmsgs : t.msgs = [(V, funds, text)])
    (hread : readFor G .verifier text = some (.verifier (.verifyWorkerSet mid o))) (hgas : 1 ≤ t.gas)
    (hh : t.block.height + vc.blockExpiry ≤ u64Max)
    (l : List Entry) (hl : l = Chain.log P (textSetup G (ts ++ [.tx t])) (Chain.succeeded P (steps G (ts ++ [.tx t])))) :
    (∃ x, execText G P (textDeployedWorld G P ts) t = .ok x) ∧
    ∃ pm, pm.sourceChain = vc.sourceChain ∧ pm.sourceGateway = vc.sourceGateway ∧
      pm.confirmationHeight = vc.confirmationHeight ∧ pm.expiresAt = t.block.height + vc.blockExpiry ∧
      (∀ a, a ∈ pm.participants ↔ ∃ w ∈ ws, w.address = a) ∧
      publishVerifier G.T V (.workerSetPollStarted tx n o pm) ∈ eventStream G.T (textDeployedLog G P (ts ++ [.tx t])) ∧
      LastSetPoll P l V o ws tx n pm := by
  have hbt : ∀ s ∈ ts, StepInRange s := fun s hs => hb s (List.mem_append_left _ hs)
  have hat := textApart_prefix ha
  have hin : InRange t := hb (.tx t) (by simp)
  obtain ⟨w1, w2, -, -, hv⟩ := C105_history (P := P) hG hX ts hbt hat
  have hmeant : (meaning G (textSetup G ts) t).msgs = [(V, funds, .verifier (.verifyWorkerSet mid o))] := by
    unfold meaning
    rw [hmsgs]
    simp only [List.map_cons, List.map_nil]
    congr 3
    unfold meant
    rw [hV]
    change (match readFor G .verifier text with | some m => m | none => noise .verifier) = _
    rw [hread]
  have hs : textSetup G ts t.sender = none := by
    by_contra h
    refine (ha t (by simp) t.sender ?_).1 rfl
    cases hk : textSetup G ts t.sender with
    | none => exact absurd hk h
    | some k => rw [textSetup_mono ts _ hk]; simp
  rw [w1] at hask hws
  obtain ⟨x, r, pm, hx, hev, h1, h2, h3, h4, h5⟩ := Chain.set_asked P (textSetup G ts) (Chain.succeeded P (steps G ts)) V vc hV
    (hv _ _ hV) (by
      have := congrArg List.length w2
      simp only [List.length_map] at this
      omega) mid o tx n hid hask ws hws hne hsz (meaning G (textSetup G ts) t) funds hmeant hs hgas hh
  obtain ⟨hset, hsucc, v1, v2⟩ := deployed_snoc hG hX ts t hb ha hx
  obtain ⟨-, w3, -, -, -⟩ := C105_history (P := P) hG hX _ hb ha
  rw [hset, hsucc] at hl w3
  rw [(Chain.log_snoc hx).2] at hl w3
  subst hl
  refine ⟨⟨_, (exec_after hG hX ts hbt hat t hin).mpr hx⟩, pm, h1, h2, h3, h4, h5, ?_, _, _, [], _, r, mid, rfl, rfl, rfl, rfl, rfl,
    hev, by simp⟩
  rw [eventStream_blind w3]
  unfold eventStream
  refine List.mem_flatMap.mpr ⟨_, List.mem_append_right _ (List.mem_singleton.mpr rfl), ?_⟩
  simp [actEvents, hev]

/-- C115, the daemon on Sui: a worker of the poll whose node shows, in a block with a checkpoint, the event of the handover to these
operators at the gateway of the poll votes for it, and only for it. -/
theorem C115_votes_sui (hG : Sound G) (a V : Addr) (E : Ampd.Sui.Env Json) (tx : Str) (n : Nat) (o : Operators) (pm : VV.PollMeta)
    (hf : EventFits (.workerSetPollStarted tx n o pm)) (hsmall : (∀ p ∈ o.weights, p.2 ≤ u128Max) ∧ o.threshold ≤ u128Max)
    (hpart : a ∈ pm.participants) (hlate : E.latestBlock < pm.expiresAt) (h : Encoding.Bytes)
    (htx : (reader G.finite G.T).digest tx = some h) (gateway : Encoding.Bytes)
    (hgw : ((reader G.finite G.T).attr pm.sourceGateway).bind (reader G.finite G.T).suiAddr = some gateway)
    (b : Ampd.Sui.TxBlock Json) (hb : E.node.getBlock h = some b) (hd : Ampd.Sui.DistinctEvents b) (hdig : b.digest = h)
    (hcp : b.checkpoint.isSome) (es : List (Ampd.Sui.SuiEvent Json)) (hes : b.events = some es) (ev : Ampd.Sui.SuiEvent Json)
    (hev : ev ∈ es) (hseq : ev.seq = n) (hty : ev.type = ⟨gateway, "validators".toList, "OperatorshipTransferred".toList, []⟩)
    (data : Encoding.Bytes) (hj : SaysSuiTransfer ev.json data)
    (hdata : Encoding.Bcs.cat [
      Encoding.Bcs.seqB (o.weights.map (fun o => Encoding.Bcs.bytesB o.1)),
      Encoding.Bcs.seqB (o.weights.map (fun o => .ok (Encoding.Bcs.u128B o.2))),
      .ok (Encoding.Bcs.u128B o.threshold)] = .ok data) :
    ∃ e, decodeEvent G.finite (publishVerifier G.T V (.workerSetPollStarted tx n o pm)) = some e ∧
      (Ampd.Sui.handleWorkerSet suiJson (Sui.deserWorkerSetPoll G.T) ⟨a, V⟩ E (.abci e)).sent =
        [⟨a, V, .vote pm.pollId [.succeededOnChain]⟩] := by
  obtain ⟨e, h1, -, h2⟩ := C94_sui_handlers (finite := G.finite) G.L hG.faithful suiJson ⟨a, V⟩ E V _ hf
  refine ⟨e, h1, ?_⟩
  rw [h2]
  have hall : Ampd.readAll (fun p : Encoding.Bytes × Nat => if p.2 ≤ u128Max then some p else none) o.weights = some o.weights :=
    readAll_id (fun p hp => by rw [if_pos (hsmall.1 p hp)])
  exact C112_votes_worker_set (Ampd.Sui.readWorkerSetPoll (reader G.finite G.T)) ⟨a, V⟩ E _
    ⟨V, pm.pollId, gateway, ⟨h, n, o.weights, o.threshold⟩, pm.participants, pm.expiresAt⟩
    ⟨⟨_, rfl, rfl, by
      simp only [Ampd.announced, Ampd.Sui.readWorkerSetPoll, Ampd.Sui.readPoll, hgw, Ampd.Sui.readWorkerSet, htx, hall,
        if_pos hsmall.2]⟩, rfl, hpart, hlate⟩ b hb hd hdig hcp es hes ev hev hseq hty data hj hdata

/-- C115, the daemon on an EVM chain: the same, if the gateway wrote, in a final block, the log of the handover. -/
theorem C115_votes_evm (hG : Sound G) (K : Ampd.Evm.LogLib) (hk : Ampd.Evm.TopicsApart K.keccak) (a V : Addr) (chain : Ampd.Evm.Chain)
    (E : Ampd.Evm.Env Ampd.Evm.RawLog) (hbd : Ampd.Evm.Bounded E.node) (tx : Str) (n : Nat) (o : Operators) (pm : VV.PollMeta)
    (hf : EventFits (.workerSetPollStarted tx n o pm)) (hsmall : ∀ p ∈ o.weights, p.1.length = 20)
    (hpart : a ∈ pm.participants) (hlate : E.latestBlock < pm.expiresAt) (h : Encoding.Bytes)
    (htx : (reader G.finite G.T).hash tx = some h) (gateway : Encoding.Bytes)
    (hgw : ((reader G.finite G.T).attr pm.sourceGateway).bind (reader G.finite G.T).addr = some gateway) (name : Str)
    (hname : ((reader G.finite G.T).attr pm.sourceChain).bind (Router.ChainName.parse G.L) = some name)
    (hsame : name.map Char.toLower = chain.show.map Char.toLower)
    (hans : Ampd.Evm.Answers chain E.node pm.confirmationHeight) (r : Ampd.Evm.Receipt Ampd.Evm.RawLog) (b : Nat)
    (hr : E.node.receipt h = some (some r)) (hd : Ampd.Evm.DistinctLogs r) (hbn : r.blockNumber = some b)
    (hfin : Ampd.Evm.Final chain E.node pm.confirmationHeight b) (hx : r.txHash = h) (l : Ampd.Evm.Log Ampd.Evm.RawLog)
    (data : Encoding.Bytes) (hl : l ∈ r.logs) (hi : l.index = some n) (hlx : l.txHash = some h) (haddr : l.address = gateway)
    (hw : Ampd.Evm.WrittenTransfer K.keccak data l.content)
    (hdata : Encoding.Abi.ethabiEncode [
      .array (o.weights.map (fun o => .address o.1)),
      .array (o.weights.map (fun o => .uint o.2)),
      .elem (.uint o.threshold)] = .ok data) :
    ∃ e, decodeEvent G.finite (publishVerifier G.T V (.workerSetPollStarted tx n o pm)) = some e ∧
      (Ampd.Evm.handleWorkerSet (Ampd.Evm.decodeLog K) (Evm.deserWorkerSetPoll G.L G.T) ⟨a, V, chain⟩ E (.abci e)).sent =
        [⟨a, V, .vote pm.pollId [.succeededOnChain]⟩] := by
  obtain ⟨e, h1, -, h2⟩ := C94_evm_handlers (finite := G.finite) G.L hG.faithful (Ampd.Evm.decodeLog K) ⟨a, V, chain⟩ E V _ hf
  refine ⟨e, h1, ?_⟩
  rw [h2]
  have hall : Ampd.readAll Ampd.readOperator o.weights = some o.weights :=
    readAll_id (fun p hp => by unfold Ampd.readOperator; rw [if_pos (hsmall p hp)])
  exact Ampd.Evm.C110_sets_voted K hk (Ampd.Evm.readWorkerSetPoll G.L (reader G.finite G.T)) ⟨a, V, chain⟩ E _ hbd
    ⟨V, pm.pollId, name, gateway, pm.confirmationHeight, pm.expiresAt, ⟨h, n, o.weights, o.threshold⟩, pm.participants⟩
    ⟨⟨_, rfl, rfl, by
      simp only [Ampd.announced, Ampd.Evm.readWorkerSetPoll, Ampd.Evm.readPoll, hname, hgw, Ampd.Evm.readWorkerSet, htx, hall]⟩,
      rfl, hsame, hpart, hlate⟩ hans r b hr hd hbn hfin hx l data hl hi hlx haddr hw hdata

/-- C115, votes are taken: the text of a vote of a worker of the poll, in a block before it expires, succeeds unless the worker had sent
a vote in this poll before. -/
theorem C115_accepted (hG : Sound G) (hX : ∀ b, IsBytes (P.X.keccak b)) (ts : List TextStep) (t : TextTx)
    (hb : ∀ s ∈ ts ++ [.tx t], StepInRange s) (ha : TextApart G (ts ++ [.tx t]))
    (l : List Entry) (hl : l = Chain.log P (textSetup G ts) (Chain.succeeded P (steps G ts)))
    (V : Addr) (vc : VV.Config) (hV : textSetup G ts V = some (.verifier vc)) (o : Operators) (ws : List Registry.Worker)
    (tx : Str) (n : Nat) (pm : VV.PollMeta) (hopen : LastSetPoll P l V o ws tx n pm) (hw : ∃ w ∈ ws, w.address = t.sender)
    (funds : List Registry.Coin) (votes : List Std.Vote) (hlen : votes.length = 1)
    (hmsgs : t.msgs = [(V, funds, (jsonMsg (.vote pm.pollId votes)).render)]) (hh : t.block.height < pm.expiresAt)
    (hgas : 2 ≤ t.gas) :
    (∃ x, execText G P (textDeployedWorld G P ts) t = .ok x) ∨
      ∃ e ∈ textDeployedLog G P ts, e.p.sender = t.sender ∧ e.p.target = V ∧
        ∃ votes', e.p.msg = .verifier (.vote pm.pollId votes') := by
  refine or_iff_not_imp_left.mpr (fun hno => ?_)
  have hx : ∀ x, execText G P (textDeployedWorld G P ts) t ≠ .ok x := fun x h => hno ⟨x, h⟩
  have hbt : ∀ s ∈ ts, StepInRange s := fun s hs => hb s (List.mem_append_left _ hs)
  have hat := textApart_prefix ha
  have hin : InRange t := hb (.tx t) (by simp)
  obtain ⟨w1, w2, -, -, hv⟩ := C105_history (P := P) hG hX ts hbt hat
  have hvalid := hv _ _ hV
  have hi := Chain.inv P (textSetup G ts) (Chain.succeeded P (steps G ts))
  subst hl
  have hpid : pm.pollId ≤ u64Max := by
    obtain ⟨l₁, e, l₂, c, r, mid, hl', -, hact, -, -, hev, -⟩ := hopen
    exact (verifier_event_fits hG hX ts hbt hat e (by rw [hl']; simp) hact hev).1.pollId
  have hs : textSetup G ts t.sender = none := by
    by_contra h
    refine (ha t (by simp) t.sender ?_).1 rfl
    cases hk : textSetup G ts t.sender with
    | none => exact absurd hk h
    | some k => rw [textSetup_mono ts _ hk]; simp
  have hmeant : (meaning G (textSetup G ts) t).msgs = [(V, funds, .verifier (.vote pm.pollId votes))] := by
    unfold meaning
    rw [hmsgs]
    simp only [List.map_cons, List.map_nil]
    congr 3
    unfold meant
    rw [hV]
    change (match readFor G .verifier (jsonMsg (.vote pm.pollId votes)).render with | some m => m | none => noise .verifier) = _
    rw [C94_vote hG _ _ hpid, if_pos rfl]
  obtain ⟨er, herr⟩ := Chain.vote_refused (P := P) (txs := Chain.succeeded P (steps G ts)) (tx := meaning G (textSetup G ts) t) hV
    hmeant hs hgas (fun y hy => hx y ((exec_after hG hX ts hbt hat t hin).mpr hy))
  obtain ⟨sp, g1, g2, g3, g4⟩ := set_poll (P := P) hV hvalid hopen
  obtain ⟨w, hwm, hwa⟩ := hw
  obtain ⟨sp2, vs2, k1, k2⟩ := VV.sent_recorded P.H hvalid _
    (d := ⟨(meaning G (textSetup G ts) t).block.height, (meaning G (textSetup G ts) t).sender, none, .vote pm.pollId votes⟩) rfl g1
    (by rw [show (meaning G (textSetup G ts) t).sender = w.address from hwa.symm]; exact g2 w hwm) (by rw [g4]; exact hlen)
    (by rw [g3]; exact hh)
  have hsame : VV.stateAfter P.H vc (Chain.verifierCalls V (Chain.log P (textSetup G ts) (Chain.succeeded P (steps G ts))) ++
      [⟨(meaning G (textSetup G ts) t).block.height, (meaning G (textSetup G ts) t).sender, none, .vote pm.pollId votes⟩]) =
      VV.stateAfter P.H vc (Chain.verifierCalls V (Chain.log P (textSetup G ts) (Chain.succeeded P (steps G ts)))) := by
    unfold VV.stateAfter at herr ⊢
    rw [runCalls_append, runCalls_cons, herr]
    rfl
  rw [hsame] at k1
  have hpi := (VV.inv_reachable P.H hvalid (Chain.verifierCalls V (Chain.log P (textSetup G ts)
    (Chain.succeeded P (steps G ts))))).polls _ _ k1
  obtain ⟨c', r', l1, l2, l3, -⟩ := hpi.ballots _ vs2 k2
  obtain ⟨cs₁, cs₂, s'', hcs, -⟩ := outs_mem _ l1
  have hmem : c' ∈ Chain.verifierCalls V (Chain.log P (textSetup G ts) (Chain.succeeded P (steps G ts))) := by
    rw [hcs]; simp
  obtain ⟨x, hx', hcx⟩ := List.mem_filterMap.mp hmem
  obtain ⟨en, hen, htn, hactn⟩ := Chain.mem_actsAt hx'
  obtain ⟨u, v, huv⟩ := List.append_of_mem hen
  obtain ⟨c, r, a1, a2, a3, -⟩ := hi.verifier_call huv hvalid (by rw [htn]; exact hV)
  rw [← hactn, a1] at hcx
  simp only [Chain.Act.verifierCall?, Option.some.injEq] at hcx
  subst hcx
  have hbl : en.blind ∈ (textDeployedLog G P ts).map Entry.blind := by
    rw [w2]; exact List.mem_map_of_mem hen
  obtain ⟨e', he', hbe⟩ := List.mem_map.mp hbl
  obtain ⟨b1, -⟩ := Chain.blind_verifier hbe a1
  exact ⟨e', he', by rw [b1, ← a2, l2]; rfl, by rw [b1]; exact htn, vs2, by rw [b1, a3, l3]⟩

/-- C115, votes (partial): let the last request about a worker set have opened a poll.  If texts that vote for it, from workers of the
poll that reach the threshold, were taken before the poll expired, the verifier answers that the set is verified.  What is missing - that
this holds whoever asks for further polls in between - is false (`C79_counterexample`). -/
theorem C115_verified_partial (hG : Sound G) (hX : ∀ b, IsBytes (P.X.keccak b)) (ts : List TextStep) (hb : ∀ s ∈ ts, StepInRange s)
    (ha : TextApart G ts) (l : List Entry) (hl : l = Chain.log P (textSetup G ts) (Chain.succeeded P (steps G ts)))
    (V : Addr) (vc : VV.Config) (hV : textSetup G ts V = some (.verifier vc)) (o : Operators) (ws : List Registry.Worker)
    (tx : Str) (n : Nat) (pm : VV.PollMeta) (hopen : LastSetPoll P l V o ws tx n pm) (Q : List Addr) (hnd : Q.Nodup)
    (hQ : ∀ a ∈ Q, ∃ w ∈ ws, w.address = a) (hquorum : ws.length * vc.threshold.num ≤ Q.length * vc.threshold.den)
    (hsend : ∀ a ∈ Q, TextTaken G P ts a V (jsonMsg (.vote pm.pollId [.succeededOnChain])).render pm.expiresAt) :
    Chain.askSet P (textDeployedWorld G P ts) V o = .ok true := by
  obtain ⟨l₁, e, l₂, c, r, mid, hl', ht, hact, hm, hws, hev, hlast⟩ := hopen
  subst hl
  obtain ⟨w1, -, -, -, hv⟩ := C105_history (P := P) hG hX ts hb ha
  have hvalid := hv _ _ hV
  have hi := Chain.inv P (textSetup G ts) (Chain.succeeded P (steps G ts))
  have hfits := verifier_event_fits hG hX ts hb ha e (by rw [hl']; simp) hact hev
  subst ht
  obtain ⟨s', hx⟩ := Chain.verifier_exec hi hl' hV hact
  have hsplit : Chain.verifierCalls e.p.target (Chain.log P (textSetup G ts) (Chain.succeeded P (steps G ts))) =
      Chain.verifierCalls e.p.target l₁ ++ c :: Chain.verifierCalls e.p.target l₂ := by
    rw [hl', show l₁ ++ e :: l₂ = l₁ ++ ([e] ++ l₂) by simp]
    simp only [Chain.verifierCalls, Chain.actsAt_append, Chain.actsAt_self _ e rfl, hact, List.filterMap_append]
    rfl
  have hpid : pm.pollId ≤ u64Max := hfits.1.pollId
  have hstate := hi.verifier_state hV
  have key := VV.C79_quorum_verifies_partial P.H vc hvalid (Chain.verifierCalls e.p.target l₁) (Chain.verifierCalls e.p.target l₂) []
    hm hx hws hev ?_ ?_
  · rw [List.append_nil, ← hsplit] at key
    rw [w1]
    unfold Chain.askSet
    rw [hstate]
    simp only [VV.isWorkerSetVerified, key]
    rfl
  · rw [← hsplit]
    refine ⟨Q, hnd, fun a haQ => ⟨hQ a haQ, ?_⟩, hquorum⟩
    obtain ⟨e', he', ht', c', r', k1, k2, k3, k4⟩ := taken_call hG hX ts hb ha hV (hsend a haQ)
      (by rw [C94_vote hG _ _ hpid, if_pos rfl])
    obtain ⟨u, v, huv⟩ := List.append_of_mem he'
    obtain ⟨s'', hx'⟩ := Chain.verifier_exec hi (e := e') (l₁ := u) (l₂ := v) huv (by rw [ht']; exact hV) k1
    have hcalls : Chain.verifierCalls e.p.target (Chain.log P (textSetup G ts) (Chain.succeeded P (steps G ts))) =
        Chain.verifierCalls e'.p.target u ++ c' :: Chain.verifierCalls e'.p.target v := by
      rw [← ht', huv, show u ++ e' :: v = u ++ ([e'] ++ v) by simp]
      simp only [Chain.verifierCalls, Chain.actsAt_append, Chain.actsAt_self _ e' rfl, k1, List.filterMap_append]
      rfl
    have hh := Chain.call_history (c₂ := Chain.verifierCalls e'.p.target v) hx'
    rw [← hcalls] at hh
    exact ⟨c', r', _, hh, k2, k3, rfl, k4⟩
  · rintro d hd ⟨mid', o', hdm, hops⟩
    obtain ⟨x, hx', hcx⟩ := List.mem_filterMap.mp hd
    obtain ⟨en, hen, htn, hactn⟩ := Chain.mem_actsAt hx'
    cases x with
    | verifier c' r' =>
      simp only [Chain.Act.verifierCall?, Option.some.injEq] at hcx
      subst hcx
      obtain ⟨u, v, huv⟩ := List.append_of_mem hen
      obtain ⟨c'', r'', a1, -, a3, -⟩ := hi.verifier_call (l₁ := l₁ ++ e :: u) (e := en) (l₂ := v) (by rw [hl', huv]; simp) hvalid
        (by rw [htn]; exact hV)
      rw [hactn] at a1
      simp only [Chain.Act.verifier.injEq] at a1
      rw [← a1.1, hdm] at a3
      exact hlast en hen htn mid' o' a3 hops
    | _ => simp [Chain.Act.verifierCall?] at hcx

/-- C115, safety: from a chain without contracts, whatever texts are sent to it.  If the worker set of a prover changed from one set to
another, the new one was pending, and, if every quorum of the workers of each poll of the prover's verifier contains one that sends no
other votes than the texts of its daemon, with truthful nodes, then the destination chain shows, in the bytes of a log or the JSON of an
event of its gateway, the handover to the operators by which it knows exactly this set. -/
theorem C115_transferred (hG : Sound G) (hX : ∀ b, IsBytes (P.X.keccak b)) (ts : List TextStep) (hb : ∀ s ∈ ts, StepInRange s)
    (ha : TextApart G ts) (l : List Entry) (hl : l = Chain.log P (textSetup G ts) (Chain.succeeded P (steps G ts)))
    (Q : Addr) (pc : Prover.Config) (sv : Str) (kt : Multisig.KeyType) (hQ : textSetup G ts Q = some (.prover pc sv kt))
    (vc : VV.Config) (hV : textSetup G ts pc.votingVerifier = some (.verifier vc)) (s : TextSource) (hbytes : s.Bytes)
    (hwat : TextWatched G P ts l pc.votingVerifier vc s)
    (l₁ l₂ : List Entry) (e : Entry) (hsplit : l = l₁ ++ e :: l₂) (old new : WorkerSet)
    (ho : Chain.currentSet (Chain.worldOf P (textSetup G ts) l₁) Q = some old)
    (hn : Chain.currentSet (Chain.worldOf P (textSetup G ts) (l₁ ++ [e])) Q = some new) (hne : old ≠ new) :
    Chain.pendingSet (Chain.worldOf P (textSetup G ts) l₁) Q = some new ∧
      ∃ o, IsOperators P.X pc.encoder new o ∧ s.ShowsHandover G vc o := by
  subst hl
  obtain ⟨-, -, -, -, hv⟩ := C105_history (P := P) hG hX ts hb ha
  have hwat' : Chain.Watched P (textSetup G ts) (Chain.log P (textSetup G ts) (Chain.succeeded P (steps G ts))) pc.votingVerifier vc
      (s.toSource G) := by
    intro l₁ e l₂ hl ht c r pm hact hst ws hws voters hnd hsub hq
    obtain ⟨a, hav, hon⟩ := hwat l₁ e l₂ hl ht c r pm hact hst ws hws voters hnd hsub hq
    exact ⟨a, hav, C113_honest hG hX ts hb ha _ vc hV _ a hon⟩
  obtain ⟨h1, o, h2, h3⟩ := Chain.C86_rotation_transferred P (textSetup G ts) (Chain.succeeded P (steps G ts)) Q pc sv kt hQ vc hV
    (hv _ _ hV) _ hwat' l₁ l₂ e hsplit old new ho hn hne
  refine ⟨h1, o, h2, ?_⟩
  cases s with
  | evm K chain saw onChain =>
    obtain ⟨id, tx, i, hh, gateway, r, k1, k2, k3, k4, k5⟩ := h3
    exact ⟨id, tx, i, hh, gateway, r, k1, k2, k3, k4, shows_of_transferred (hbytes r k4) k5⟩
  | sui saw onChain =>
    obtain ⟨id, tx, i, hh, gateway, b, k1, k2, k3, k4, k5⟩ := h3
    exact ⟨id, tx, i, hh, gateway, b, k1, k2, k3, k4, transferred_iff.mp k5⟩

end Amp.Wire
