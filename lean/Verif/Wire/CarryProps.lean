import Verif.Wire.CarryLemmas

/-!
# C114: messages are carried through, from the bytes of the source chain to the text that a relayer reads
-/

namespace Amp.Wire

open Amp.Chain (Params Setup Entry)
open Amp.Router (CCId Message)

variable {G : Texture} {P : Params}

/-! ### Helper lemmas -/

/-- what a daemon says that confirms a message: a vote in the poll, for all its messages, and for `m` -/
theorem confirms_votes (hG : Sound G) {V a : Addr} {s : TextSource} {confs : List VV.TxConfirmation} {pm : VV.PollMeta}
    (hf : EventFits (.messagesPollStarted confs pm)) {m : Message} {cf : VV.TxConfirmation} (hcf : VV.confirmationOf m = .ok cf)
    {msg : Ampd.TxMsg} (h : s.Confirms G V confs pm m a msg) :
    ∃ votes, msg = .vote pm.pollId votes ∧ votes.length = confs.length ∧
      ∀ i : Nat, confs[i]? = some cf → votes[i]? = some .succeededOnChain := by
  obtain ⟨e, hdec, h⟩ := h
  unfold VV.confirmationOf at hcf
  cases s with
  | evm K chain saw onChain =>
    obtain ⟨E, tx, i0, hh, gateway, src, dest, r, b, -, h2, h3, h4, h5, h6, h7, h8, h9, h10, h11, h12, h13, h14⟩ := h
    rw [h5] at hcf
    simp only [Except.ok.injEq] at hcf
    obtain ⟨e', b1, b2, -⟩ := C94_evm_handlers (finite := G.finite) G.L hG.faithful (Ampd.Evm.decodeLog K) ⟨a, V, chain⟩ E V _ hf
    rw [hdec] at b1
    simp only [Option.some.injEq] at b1
    subst b1
    rw [b2] at h14
    obtain ⟨p, f, ⟨⟨ab, hab, -, hdes⟩, -⟩, -, ht⟩ := Ampd.Evm.handleMessages_sent h14
    simp only [Ampd.Event.abci.injEq] at hab
    subst hab
    obtain ⟨q1, q2, q3, q4, q5, q6, q7, q8⟩ := Ampd.Evm.readPoll_some
      (show Ampd.Evm.readPoll G.L (reader G.finite G.T) V pm (Ampd.readAll (Ampd.Evm.readMessage G.L (reader G.finite G.T)) confs) =
        some p from hdes)
    have hmsg : msg = _ := congrArg Ampd.ExecTx.msg ht
    refine ⟨_, by rw [hmsg, q2], by rw [List.length_map, Ampd.readAll_length q1], ?_⟩
    intro i hi
    obtain ⟨dm, hdm, hci⟩ := Ampd.readAll_getElem q1 hi
    have hdm' : dm = ⟨hh, i0, m.destinationAddress, dest, src, m.payloadHash⟩ := by
      rw [← hcf] at hdm
      unfold Ampd.Evm.readMessage at hdm
      simp only [h6, h8, h9, Option.some.injEq] at hdm
      exact hdm.symm
    have hgw : p.sourceGateway = gateway := by
      rw [h7] at q7
      exact (Option.some.inj q7).symm
    have := (Ampd.Evm.C68_exact G.L (Ampd.Evm.decodeLog K) (Ampd.Evm.readMessagesPoll G.L (reader G.finite G.T)) _ E _ h2 h3 h4 p _
      rfl hdes _ _ _ h14 hmsg i dm hci).1
      ⟨r, b, by rw [hdm']; exact h10, h11, by rw [q6]; exact h12, by rw [hgw, hdm']; exact Ampd.Evm.emitted_of_wrote h13⟩
    exact this
  | sui saw onChain =>
    obtain ⟨E, tx, i0, hh, gateway, src, dest, p, bs, b, -, h2, h5, h6, h7, h8, h9, h10, h11, h12, h13, h14, h15⟩ := h
    rw [h5] at hcf
    simp only [Except.ok.injEq] at hcf
    obtain ⟨p', bs', ⟨⟨ab, hab, -, hdes'⟩, -⟩, -, ht⟩ := Ampd.Sui.handleMessages_sent h15
    simp only [Ampd.Event.abci.injEq] at hab
    subst hab
    rw [h10] at hdes'
    simp only [Option.some.injEq] at hdes'
    subst hdes'
    have hmsg : msg = _ := congrArg Ampd.ExecTx.msg ht
    obtain ⟨e', b1, b2, -⟩ := C94_sui_handlers (finite := G.finite) G.L hG.faithful suiJson ⟨a, V⟩ E V _ hf
    rw [hdec] at b1
    simp only [Option.some.injEq] at b1
    subst b1
    have h15' := h15
    rw [b2] at h15'
    obtain ⟨p', bs', ⟨⟨ab, hab, -, hdes⟩, -⟩, -, ht'⟩ := Ampd.Sui.handleMessages_sent h15'
    simp only [Ampd.Event.abci.injEq] at hab
    subst hab
    obtain ⟨q1, q2, q3, q4, q5, q6⟩ := Ampd.Sui.readPoll_some
      (show Ampd.Sui.readPoll (reader G.finite G.T) V pm (Ampd.readAll (Ampd.Sui.readMessage G.L (reader G.finite G.T)) confs) =
        some p' from hdes)
    have hpp : p = p' := by
      have hrd := sui_messages_read (finite := G.finite) G.L hG.faithful V hf.1 hf.2
      rw [decoded_verifier] at hdec
      simp only [Option.some.injEq] at hdec
      rw [← hdec] at h10
      have h10' : Ampd.Sui.readMessagesPoll G.L (reader G.finite G.T) (V, .messagesPollStarted confs pm) = some p := by
        rw [← hrd]; exact h10
      have hdes' : Ampd.Sui.readMessagesPoll G.L (reader G.finite G.T) (V, .messagesPollStarted confs pm) = some p' := hdes
      rw [h10'] at hdes'
      exact Option.some.inj hdes'
    subst hpp
    refine ⟨_, by rw [hmsg, q2], by rw [List.length_map, Ampd.readAll_length q1], ?_⟩
    intro i hi
    obtain ⟨dm, hdm, hci⟩ := Ampd.readAll_getElem q1 hi
    have hdm' : dm = ⟨hh, i0, m.destinationAddress, dest, src, m.payloadHash⟩ := by
      rw [← hcf] at hdm
      unfold Ampd.Sui.readMessage at hdm
      simp only [h6, h8, h9, Option.some.injEq] at hdm
      exact hdm.symm
    have hgw : p.sourceGateway = gateway := by
      rw [h7] at q6
      exact (Option.some.inj q6).symm
    exact (Ampd.Sui.C69_exact G.L suiJson (Sui.deserMessagesPoll G.L G.T) _ E _ p _ rfl h10 h2 h11 _ _ _ h15 hmsg i dm hci bs h12).1
      ⟨b, h13, by rw [hgw, hdm']; exact emitted_iff.mpr h14⟩

theorem nexusCalls_blind {l l' : List Entry} (h : l.map Entry.blind = l'.map Entry.blind) (a : Addr) :
    Chain.nexusCalls a l = Chain.nexusCalls a l' := by
  have key : ∀ l : List Entry, Chain.nexusCalls a l = Chain.nexusCalls a (l.map Entry.blind) := by
    intro l
    induction l with
    | nil => rfl
    | cons e t ih =>
      rw [List.map_cons, show e :: t = [e] ++ t from rfl, show e.blind :: t.map Entry.blind = [e.blind] ++ t.map Entry.blind from rfl]
      unfold Chain.nexusCalls at *
      rw [Chain.actsAt_append, Chain.actsAt_append, List.filterMap_append, List.filterMap_append, ih]
      refine congrArg₂ (· ++ ·) ?_ rfl
      by_cases hp : e.p.target = a
      · rw [Chain.actsAt_self _ e hp, Chain.actsAt_self _ e.blind hp]
        unfold Entry.blind
        cases e.act <;> rfl
      · have e1 : Chain.actsAt a [e] = [] := by simp [Chain.actsAt, hp]
        have e2 : Chain.actsAt a [e.blind] = [] := by simp [Chain.actsAt, Entry.blind, hp]
        rw [e1, e2]
  rw [key l, h, ← key l']

/-- a poll that was opened, and the storage of its verifier -/
theorem opened_poll {setup : Setup} {txs : List Chain.Tx} {V : Addr} {vc : VV.Config} (hV : setup V = some (.verifier vc))
    (hvalid : vc.Valid) {m : Message} {ws : List Registry.Worker} {confs : List VV.TxConfirmation} {pm : VV.PollMeta}
    {cf : VV.TxConfirmation} (hopen : Chain.PollOpened P (Chain.log P setup txs) V vc m ws confs pm cf) :
    ∃ sp, (VV.stateAfter P.H vc (Chain.verifierCalls V (Chain.log P setup txs))).polls pm.pollId = some sp ∧
      (∀ w ∈ ws, ∃ n, (w.address, n) ∈ sp.poll.voters) ∧ sp.poll.expiresAt = pm.expiresAt ∧ sp.poll.pollSize = confs.length := by
  obtain ⟨l₁, e, l₂, c, r, ms, hl', ht, hact, hm, hmem, hinj, hst, hws, hev, hcf⟩ := hopen
  have hi := Chain.inv P setup txs
  subst ht
  obtain ⟨s', hx⟩ := Chain.verifier_exec hi hl' hV hact
  have hsplit : Chain.verifierCalls e.p.target (Chain.log P setup txs) =
      Chain.verifierCalls e.p.target l₁ ++ c :: Chain.verifierCalls e.p.target l₂ := by
    rw [hl', show l₁ ++ e :: l₂ = l₁ ++ ([e] ++ l₂) by simp]
    simp only [Chain.verifierCalls, Chain.actsAt_append, Chain.actsAt_self _ e rfl, hact, List.filterMap_append]
    rfl
  obtain ⟨ws', confs', pm', cf', j, sp, e1, e2, -, -, e5, -, -, e8, -, e11, e12, -, -, -⟩ :=
    VV.opened_tracks P.H hvalid _ hm hx hmem hst hinj
  rw [hev] at e2
  rw [hws] at e1
  simp only [Option.some.injEq, VV.Event.messagesPollStarted.injEq] at e1 e2
  obtain ⟨rfl, rfl⟩ := e2
  subst e1
  obtain ⟨sp1, f1, f2, f3, f4, f5⟩ := VV.opened_persists P.H hvalid _ (Chain.verifierCalls e.p.target l₂) hx e5
  exact ⟨sp1, by rw [hsplit]; exact f1, by rw [f2]; exact e12, by rw [f4, e11], by rw [f5, e8]⟩

/-- the question for a message, as text, and what a gateway that has it answers -/
theorem asked_message (hG : Sound G) (hX : Octets P.X) (h4 : FourIds P.X) (ts : List TextStep) (hb : ∀ s ∈ ts, StepInRange s)
    {a : Addr} {id : CCId} (hid : CCIdTyped G.L id) {m : Message}
    (h : Chain.askGateway (textDeployedWorld G P ts) a [id] = .ok [m]) :
    ∃ text, query G P (textDeployedWorld G P ts) a ((UserQuestion.contract (.getMessages [id])).json G.T).render = some text ∧
      (UserQuestion.contract (.getMessages [id])).readText G text = some (.contract (.messages [m])) := by
  have key := C111_answer_partial hG hX h4 ts hb a (.contract (.getMessages [id]))
    (by
      intro i hi
      simp only [List.mem_cons, List.not_mem_nil, or_false] at hi
      subst hi
      exact hid) (by intro _ _ h; cases h)
  have ht : (UserQuestion.contract (.getMessages [id])).truth G.T P (textDeployedWorld G P ts) a =
      some (.contract (.messages [m])) := by
    unfold Chain.askGateway at h
    simp only [UserQuestion.truth]
    cases hw : textDeployedWorld G P ts a with
    | none => rw [hw] at h; simp at h
    | some s =>
      rw [hw] at h
      cases s with
      | gateway s =>
        simp only at h
        cases hq : Gateway.getMessages s [id] with
        | error e => rw [hq] at h; cases h
        | ok r =>
          rw [hq] at h
          simp only [Except.ok.injEq] at h
          subst h
          simp only [Option.bind_some, Question.truth, hq, Chain.answer, Option.map_some]
      | _ => simp at h
  rw [ht, Option.map_some] at key
  obtain ⟨text, h1, h2⟩ := Option.map_eq_some_iff.mp key
  exact ⟨text, h1, h2⟩

/-! ### The property -/

/-- C114, verification: From a chain without contracts, whatever texts are sent to it, in the order of their blocks.  Let a poll about
`m` have been opened.  If the daemons of a quorum of its workers read the event of the poll, with nodes that show the contract call in
a final block, and the texts that they write are taken before the poll expires, and these workers send no other votes in this poll:
`m` is reported as verified. -/
theorem C114_verified (hG : Sound G) (hX : ∀ b, IsBytes (P.X.keccak b)) (ts : List TextStep) (hb : ∀ s ∈ ts, StepInRange s)
    (ha : TextApart G ts) (ho : TextInOrder ts)
    (l : List Entry) (hl : l = Chain.log P (textSetup G ts) (Chain.succeeded P (steps G ts)))
    (V : Addr) (vc : VV.Config) (hV : textSetup G ts V = some (.verifier vc)) (m : Message) (ws : List Registry.Worker)
    (confs : List VV.TxConfirmation) (pm : VV.PollMeta) (cf : VV.TxConfirmation)
    (hopen : Chain.PollOpened P l V vc m ws confs pm cf) (s : TextSource) (Q : List Addr) (hnd : Q.Nodup)
    (hQ : ∀ a ∈ Q, ∃ w ∈ ws, w.address = a) (hquorum : ws.length * vc.threshold.num ≤ Q.length * vc.threshold.den)
    (hsend : ∀ a ∈ Q, ∃ msg, s.Confirms G V confs pm m a msg ∧ TextTaken G P ts a V (jsonMsg msg).render pm.expiresAt)
    (honly : ∀ a ∈ Q, OnlyDaemon G ts s V confs pm m a) :
    Chain.askVerifier P (textDeployedWorld G P ts) V [m] = some [(m.ccId, true)] := by
  obtain ⟨l₁, e, l₂, c, r, ms, hl', ht, hact, hm, hmem, hinj, hst, hws, hev, hcf⟩ := hopen
  subst hl
  obtain ⟨w1, -, -, -, hv⟩ := C105_history (P := P) hG hX ts hb ha
  have hvalid := hv _ _ hV
  have hi := Chain.inv P (textSetup G ts) (Chain.succeeded P (steps G ts))
  have hfits := verifier_event_fits hG hX ts hb ha e (by rw [hl']; simp) hact hev
  subst ht
  obtain ⟨s', hx⟩ := Chain.verifier_exec hi hl' hV hact
  have hsplit : Chain.verifierCalls e.p.target (Chain.log P (textSetup G ts) (Chain.succeeded P (steps G ts))) =
      Chain.verifierCalls e.p.target l₁ ++ c :: Chain.verifierCalls e.p.target l₂ := by
    rw [hl', show l₁ ++ e :: l₂ = l₁ ++ ([e] ++ l₂) by simp]
    simp only [Chain.verifierCalls, Chain.actsAt_append, Chain.actsAt_self _ e rfl, hact, List.filterMap_append]
    rfl
  have hord : VV.InBlockOrder (Chain.verifierCalls e.p.target l₂) := by
    have := (Chain.calls_inOrder P (textSetup G ts) e.p.target _ (succeeded_inOrder (G := G) (P := P) ho)).1
    rw [hsplit] at this
    unfold VV.InBlockOrder at *
    rw [List.map_append, List.pairwise_append, List.map_cons, List.pairwise_cons] at this
    exact this.2.1.2
  -- before the poll was opened, nobody voted in it
  have hnone : (VV.stateAfter P.H vc (Chain.verifierCalls e.p.target l₁)).polls pm.pollId = none := by
    obtain ⟨ws', confs', pm', cf', j, sp, -, e2, -, -, -, -, -, -, -, -, -, -, e14, -⟩ :=
      VV.opened_tracks P.H hvalid _ hm hx hmem hst hinj
    rw [hev] at e2
    simp only [Option.some.injEq, VV.Event.messagesPollStarted.injEq] at e2
    rw [e2.2]
    exact e14
  have hpid : pm.pollId ≤ u64Max := hfits.1.pollId
  rw [w1, Chain.askVerifier_one hi hV, hsplit]
  refine VV.C78_votes_verify P.H vc hvalid _ _ hm hx hmem hst hinj hws hev hcf hord Q hnd hQ hquorum ?_ ?_
  · intro a haQ
    obtain ⟨msg, hconf, htaken⟩ := hsend a haQ
    obtain ⟨votes, rfl, hlen, -⟩ := confirms_votes hG hfits hcf hconf
    obtain ⟨e', he', ht', c', r', k1, k2, k3, k4⟩ := taken_call hG hX ts hb ha hV htaken
      (by rw [C94_vote hG _ _ hpid, if_pos rfl])
    refine ⟨c', ?_, votes, k2, k3, hlen, k4⟩
    rw [hl'] at he'
    rcases List.mem_append.mp he' with he' | he'
    · exfalso
      obtain ⟨u, v, huv⟩ := List.append_of_mem he'
      obtain ⟨s'', hx'⟩ := Chain.verifier_exec hi (e := e') (l₁ := u) (l₂ := v ++ e :: l₂) (by rw [hl', huv]; simp)
        (by rw [ht']; exact hV) k1
      have hcalls : Chain.verifierCalls e.p.target l₁ =
          Chain.verifierCalls e'.p.target u ++ c' :: Chain.verifierCalls e'.p.target v := by
        rw [← ht', huv, show u ++ e' :: v = u ++ ([e'] ++ v) by simp]
        simp only [Chain.verifierCalls, Chain.actsAt_append, Chain.actsAt_self _ e' rfl, k1, List.filterMap_append]
        rfl
      have hh := Chain.call_history (c₂ := Chain.verifierCalls e'.p.target v) hx'
      rw [← hcalls] at hh
      obtain ⟨sp, h1, -⟩ := VV.vote_recorded P.H hvalid _ _ hh _ _ k3
      rw [hnone] at h1
      cases h1
    · rcases List.mem_cons.mp he' with rfl | he'
      · rw [hact] at k1
        simp only [Chain.Act.verifier.injEq] at k1
        rw [← k1.1, hm] at k3
        cases k3
      · unfold Chain.verifierCalls
        refine List.mem_filterMap.mpr ⟨e'.act, ?_, by rw [k1]; rfl⟩
        rw [← ht']
        exact Chain.actsAt_mem he'
  · intro d hd hdQ vs hdm _ i hci
    obtain ⟨x, hx', hcx⟩ := List.mem_filterMap.mp hd
    obtain ⟨en, hen, htn, hactn⟩ := Chain.mem_actsAt hx'
    cases x with
    | verifier c' r' =>
      simp only [Chain.Act.verifierCall?, Option.some.injEq] at hcx
      subst hcx
      obtain ⟨t, htm, hts, y, hy, hyV, hread⟩ := vote_text hG hX ts hb ha hV (x := (c', r'))
        (Chain.mem_verifierLog.mpr ⟨en, by rw [hl']; simp [hen], htn, hactn⟩) hdm
      obtain ⟨msg, hconf, htext⟩ := honly _ hdQ t htm hts y hy hyV ⟨vs, hread⟩
      obtain ⟨votes, rfl, -, hvote⟩ := confirms_votes hG hfits hcf hconf
      rw [htext, C94_vote hG _ _ hpid, if_pos rfl] at hread
      simp only [Option.some.injEq, Chain.Msg.verifier.injEq, VV.Msg.vote.injEq] at hread
      rw [← hread.2]
      exact hvote i hci
    | _ => simp [Chain.Act.verifierCall?] at hcx

/-- C114, votes: before the poll expires, the text of a ballot for all its messages from one of its workers, in a transaction of its
own, is refused only if the verifier already took a ballot of this worker in this poll. -/
theorem C114_accepted (hG : Sound G) (hX : ∀ b, IsBytes (P.X.keccak b)) (ts : List TextStep) (t : TextTx)
    (hb : ∀ s ∈ ts ++ [.tx t], StepInRange s) (ha : TextApart G (ts ++ [.tx t]))
    (l : List Entry) (hl : l = Chain.log P (textSetup G ts) (Chain.succeeded P (steps G ts)))
    (V : Addr) (vc : VV.Config) (hV : textSetup G ts V = some (.verifier vc)) (m : Message) (ws : List Registry.Worker)
    (confs : List VV.TxConfirmation) (pm : VV.PollMeta) (cf : VV.TxConfirmation)
    (hopen : Chain.PollOpened P l V vc m ws confs pm cf) (hw : ∃ w ∈ ws, w.address = t.sender)
    (funds : List Registry.Coin) (votes : List Std.Vote) (hlen : votes.length = confs.length)
    (hmsgs : t.msgs = [(V, funds, (jsonMsg (.vote pm.pollId votes)).render)]) (hh : t.block.height < pm.expiresAt)
    (hgas : 2 ≤ t.gas) :
    (∃ x, execText G P (textDeployedWorld G P ts) t = .ok x) ∨
      ∃ e ∈ textDeployedLog G P ts, e.p.sender = t.sender ∧ e.p.target = V ∧
        ∃ votes', e.p.msg = .verifier (.vote pm.pollId votes') := by
  refine or_iff_not_imp_left.mpr (fun hno => ?_)
  have hx : ∀ x, execText G P (textDeployedWorld G P ts) t ≠ .ok x := fun x h => hno ⟨x, h⟩
  have hbt : ∀ s ∈ ts, StepInRange s := fun s hs => hb s (List.mem_append_left _ hs)
  have hat := textApart_prefix ha
  have hin : InRange t := hb (.tx t) (by simp)
  obtain ⟨w1, w2, -, -, hv⟩ := C105_history (P := P) hG hX ts hbt hat
  have hvalid := hv _ _ hV
  have hi := Chain.inv P (textSetup G ts) (Chain.succeeded P (steps G ts))
  subst hl
  have hpid : pm.pollId ≤ u64Max := by
    obtain ⟨l₁, e, l₂, c, r, ms, hl', -, hact, -, -, -, -, -, hev, -⟩ := hopen
    exact (verifier_event_fits hG hX ts hbt hat e (by rw [hl']; simp) hact hev).1.pollId
  have hs : textSetup G ts t.sender = none := by
    by_contra h
    refine (ha t (by simp) t.sender ?_).1 rfl
    cases hk : textSetup G ts t.sender with
    | none => exact absurd hk h
    | some k => rw [textSetup_mono ts _ hk]; simp
  have hmeant : (meaning G (textSetup G ts) t).msgs = [(V, funds, .verifier (.vote pm.pollId votes))] := by
    unfold meaning
    rw [hmsgs]
    simp only [List.map_cons, List.map_nil]
    congr 3
    unfold meant
    rw [hV]
    change (match readFor G .verifier (jsonMsg (.vote pm.pollId votes)).render with | some m => m | none => noise .verifier) = _
    rw [C94_vote hG _ _ hpid, if_pos rfl]
  obtain ⟨er, herr⟩ := Chain.vote_refused (P := P) (txs := Chain.succeeded P (steps G ts)) (tx := meaning G (textSetup G ts) t) hV
    hmeant hs hgas (fun y hy => hx y ((exec_after hG hX ts hbt hat t hin).mpr hy))
  obtain ⟨sp, g1, g2, g3, g4⟩ := opened_poll (P := P) hV hvalid hopen
  obtain ⟨w, hwm, hwa⟩ := hw
  obtain ⟨sp2, vs2, k1, k2⟩ := VV.sent_recorded P.H hvalid _
    (d := ⟨(meaning G (textSetup G ts) t).block.height, (meaning G (textSetup G ts) t).sender, none, .vote pm.pollId votes⟩) rfl g1
    (by rw [show (meaning G (textSetup G ts) t).sender = w.address from hwa.symm]; exact g2 w hwm) (by rw [g4]; exact hlen)
    (by rw [g3]; exact hh)
  have hsame : VV.stateAfter P.H vc (Chain.verifierCalls V (Chain.log P (textSetup G ts) (Chain.succeeded P (steps G ts))) ++
      [⟨(meaning G (textSetup G ts) t).block.height, (meaning G (textSetup G ts) t).sender, none, .vote pm.pollId votes⟩]) =
      VV.stateAfter P.H vc (Chain.verifierCalls V (Chain.log P (textSetup G ts) (Chain.succeeded P (steps G ts)))) := by
    unfold VV.stateAfter at herr ⊢
    rw [runCalls_append, runCalls_cons, herr]
    rfl
  rw [hsame] at k1
  have hpi := (VV.inv_reachable P.H hvalid (Chain.verifierCalls V (Chain.log P (textSetup G ts)
    (Chain.succeeded P (steps G ts))))).polls _ _ k1
  obtain ⟨c', r', l1, l2, l3, -⟩ := hpi.ballots _ vs2 k2
  obtain ⟨cs₁, cs₂, s'', hcs, -⟩ := outs_mem _ l1
  have hmem : c' ∈ Chain.verifierCalls V (Chain.log P (textSetup G ts) (Chain.succeeded P (steps G ts))) := by
    rw [hcs]; simp
  obtain ⟨x, hx', hcx⟩ := List.mem_filterMap.mp hmem
  obtain ⟨en, hen, htn, hactn⟩ := Chain.mem_actsAt hx'
  obtain ⟨u, v, huv⟩ := List.append_of_mem hen
  obtain ⟨c, r, a1, a2, a3, -⟩ := hi.verifier_call huv hvalid (by rw [htn]; exact hV)
  rw [← hactn, a1] at hcx
  simp only [Chain.Act.verifierCall?, Option.some.injEq] at hcx
  subst hcx
  have hbl : en.blind ∈ (textDeployedLog G P ts).map Entry.blind := by
    rw [w2]; exact List.mem_map_of_mem hen
  obtain ⟨e', he', hbe⟩ := List.mem_map.mp hbl
  obtain ⟨b1, -⟩ := Chain.blind_verifier hbe a1
  exact ⟨e', he', by rw [b1, ← a2, l2]; rfl, by rw [b1]; exact htn, vs2, by rw [b1, a3, l3]⟩

/-- C114, delivery: then, whoever sends the gateway of the source chain a text that asks to route `m`, the transaction succeeds,
unless a chain is frozen, and `m` arrives: the text with which the gateway of the destination chain answers the question for it says
`m`, or, if that chain is not registered, it was handed to the nexus module. -/
theorem C114_delivered (hG : Sound G) (hX : Octets P.X) (h4 : FourIds P.X) (ts : List TextStep) (t : TextTx)
    (hb : ∀ s ∈ ts ++ [.tx t], StepInRange s) (ha : TextApart G (ts ++ [.tx t])) (ho : TextInOrder ts)
    (l : List Entry) (hl : l = Chain.log P (textSetup G ts) (Chain.succeeded P (steps G ts)))
    (R : Addr) (rc : Router.Config) (hR : textSetup G ts R = some (.router rc)) (g : Addr) (gc : Gateway.Config)
    (hg : textSetup G ts g = some (.gateway gc)) (hgR : gc.router = R) (vc : VV.Config)
    (hV : textSetup G ts gc.verifier = some (.verifier vc)) (m : Message) (ws : List Registry.Worker)
    (confs : List VV.TxConfirmation) (pm : VV.PollMeta) (cf : VV.TxConfirmation)
    (hopen : Chain.PollOpened P l gc.verifier vc m ws confs pm cf) (s : TextSource) (Q : List Addr) (hnd : Q.Nodup)
    (hQ : ∀ a ∈ Q, ∃ w ∈ ws, w.address = a) (hquorum : ws.length * vc.threshold.num ≤ Q.length * vc.threshold.den)
    (hsend : ∀ a ∈ Q, ∃ msg, s.Confirms G gc.verifier confs pm m a msg ∧
      TextTaken G P ts a gc.verifier (jsonMsg msg).render pm.expiresAt)
    (honly : ∀ a ∈ Q, OnlyDaemon G ts s gc.verifier confs pm m a)
    (ep : Router.ChainEndpoint) (hn : Chain.chainInfo (textDeployedWorld G P ts) R m.ccId.chain = some ep)
    (hep : ep.gateway = g) (hfr : ep.frozenIn .incoming = false)
    (hdest : Chain.Open (textSetup G ts) (textDeployedWorld G P ts) R rc m.destinationChain)
    (funds : List Registry.Coin) (text : Str) (hmsgs : t.msgs = [(g, funds, text)]) (msg : Chain.Msg)
    (hread : readFor G .gateway text = some msg) (hroute : msg.toGateway = some (.routeMessages [m])) (hgas : 3 ≤ t.gas) :
    (∃ x, execText G P (textDeployedWorld G P ts) t = .ok x) ∧
      ((∃ ep' reply, Chain.chainInfo (textDeployedWorld G P (ts ++ [.tx t])) R m.destinationChain = some ep' ∧
          query G P (textDeployedWorld G P (ts ++ [.tx t])) ep'.gateway
            ((UserQuestion.contract (.getMessages [m.ccId])).json G.T).render = some reply ∧
          (UserQuestion.contract (.getMessages [m.ccId])).readText G reply = some (.contract (.messages [m]))) ∨
        (Chain.chainInfo (textDeployedWorld G P (ts ++ [.tx t])) R m.destinationChain = none ∧
          ∃ nc, textSetup G ts rc.nexusGateway = some (.nexus nc) ∧
            m.ccId ∈ Nexus.forwardedIds (Nexus.history nc
              (Chain.nexusCalls rc.nexusGateway (textDeployedLog G P (ts ++ [.tx t])))))) := by
  have hbt : ∀ s ∈ ts, StepInRange s := fun s hs => hb s (List.mem_append_left _ hs)
  have hat := textApart_prefix ha
  have hin : InRange t := hb (.tx t) (by simp)
  have hver := C114_verified hG hX.keccak ts hbt hat ho l hl gc.verifier vc hV m ws confs pm cf hopen s Q hnd hQ hquorum hsend honly
  have hset : textSetup G (ts ++ [.tx t]) = textSetup G ts := by
    funext a
    unfold textSetup
    rw [List.filterMap_append, Chain.setupOf_append]
    cases Chain.setupOf (ts.filterMap (founding G)) a <;> rfl
  obtain ⟨w1, -, -, -, -⟩ := C105_history (P := P) hG hX.keccak ts hbt hat
  obtain ⟨w2, w3, -, -, -⟩ := C105_history (P := P) hG hX.keccak _ hb ha
  have hmeant : (meaning G (textSetup G ts) t).msgs = [(g, funds, msg)] := by
    unfold meaning
    rw [hmsgs]
    simp only [List.map_cons, List.map_nil]
    congr 3
    unfold meant
    rw [hg]
    change (match readFor G .gateway text with | some m => m | none => noise .gateway) = _
    rw [hread]
  have hs : textSetup G ts t.sender = none := by
    by_contra h
    exact (ha t (by simp) t.sender (by rw [hset]; exact h)).1 rfl
  obtain ⟨h1, h2⟩ := Chain.C80_route_delivers P (textSetup G ts) (Chain.succeeded P (steps G ts)) R rc hR g gc vc hg hgR hV
    m.ccId.chain ep (by rw [← w1]; exact hn) hep hfr [m] (by simp) (by rw [← w1, hver]; rfl)
    (by
      intro m' hm' _
      simp only [List.mem_cons, List.not_mem_nil, or_false] at hm'
      subst hm'
      exact ⟨rfl, by rw [← w1]; exact hdest⟩) (meaning G (textSetup G ts) t) ⟨funds, msg, hmeant, hroute⟩ hs hgas
  have harr := h2 m (List.mem_cons_self ..) (by rw [← w1]; exact hver)
  obtain ⟨x, hx⟩ := h1
  refine ⟨⟨x, (exec_after hG hX.keccak ts hbt hat t hin).mpr hx⟩, ?_⟩
  have hsucc : Chain.succeeded P (steps G (ts ++ [.tx t])) =
      Chain.succeeded P (steps G ts) ++ [meaning G (textSetup G ts) t] := by
    have e1 : steps G (ts ++ [.tx t]) = steps G ts ++ [.tx (meaning G (textSetup G ts) t)] := by
      unfold steps
      rw [hset, List.filterMap_append]
      rfl
    have e2 : Chain.stepExec P (runCalls (Chain.stepExec P) Chain.nothing (steps G ts)) (.tx (meaning G (textSetup G ts) t)) =
        .ok (x.1, x.2) := by
      have e3 : runCalls (Chain.stepExec P) Chain.nothing (steps G ts) =
          Chain.worldAfter P (textSetup G ts) (Chain.succeeded P (steps G ts)) := by
        rw [← w1]
        exact (C105_text (P := P) hG hX.keccak ts hbt).1.symm
      rw [e3]
      exact hx
    unfold Chain.succeeded
    rw [e1, outs_append, outs_cons_ok _ e2, List.filterMap_append]
    rfl
  rw [hset, hsucc] at w2 w3
  have htyped : CCIdTyped G.L m.ccId := by
    obtain ⟨l₁, e, l₂, c, r, ms, hl', ht, hact, hm, hmem, -⟩ := hopen
    have he : e ∈ Chain.log P (textSetup G ts) (Chain.succeeded P (steps G ts)) := by rw [← hl, hl']; simp
    have hty := deployed_typed hG hX.keccak ts hbt hat e he
    obtain ⟨c', r', a1, -, a3, -⟩ := (Chain.inv P (textSetup G ts) (Chain.succeeded P (steps G ts))).verifier_call
      (hl.symm.trans hl') ((C105_history (P := P) hG hX.keccak ts hbt hat).2.2.2.2 _ _ hV) (by rw [ht]; exact hV)
    rw [hact] at a1
    simp only [Chain.Act.verifier.injEq] at a1
    rw [a3, ← a1.1, hm] at hty
    exact (hty m hmem).ccId
  rcases harr with ⟨ep', k1, k2⟩ | ⟨k1, nc, k2, k3⟩
  · rw [← w2] at k1 k2
    obtain ⟨reply, r1, r2⟩ := asked_message hG hX h4 _ hb htyped k2
    exact Or.inl ⟨ep', reply, k1, r1, r2⟩
  · rw [← w2] at k1
    refine Or.inr ⟨k1, nc, k2, ?_⟩
    rw [nexusCalls_blind w3]
    exact k3

end Amp.Wire
