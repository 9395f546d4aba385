import Verif.VV.ProgressProps
import Verif.Ampd.TrustProps

/-! # C78 with daemons: what the workers' daemons vote for is verified

`VV/ProgressProps.lean` says that the votes of a quorum verify a message.  Here the votes are those of the
daemon's handlers (`Ampd/Handlers.lean`), so that the hypotheses are about the source chain and the nodes. -/

namespace Amp.Ampd

open Amp.Std (Vote)
open Amp.Encoding (Bytes)
open Amp.Router (ChainName Lowering)

/-- the workers of the snapshot are the participants announced -/
theorem announced_participant (H : VV.Hashes) {cfg : VV.Config} (hv : cfg.Valid) (cs : List VV.Call)
    {c : VV.Call} {s' : VV.State} {r : VV.Resp} {ms : List Router.Message} (hm : c.msg = .verifyMessages ms)
    (hx : VV.exec H (VV.stateAfter H cfg cs) c = .ok (s', r)) {m : Router.Message} (hmem : m ∈ ms)
    (hst : VV.msgStatus H (VV.stateAfter H cfg cs) m = .ok .notVerified ∨
      VV.msgStatus H (VV.stateAfter H cfg cs) m = .ok .failedToVerify)
    (hinj : ∀ m' ∈ ms, m'.hash H.msg = m.hash H.msg → m' = m)
    {ws : List Registry.Worker} (hws : c.workers = some ws) {confs : List VV.TxConfirmation} {pm : VV.PollMeta}
    (hev : r.event = some (.messagesPollStarted confs pm)) {w : Registry.Worker} (hw : w ∈ ws) :
    w.address ∈ pm.participants := by
  obtain ⟨ws', confs', pm', cf', j, sp, e1, e2, e3, e4, e5, e6, e7, e8, e10, e11, e12, e13, e14, e9⟩ :=
    VV.opened_tracks H hv cs hm hx hmem hst hinj
  rw [hws] at e1
  rw [hev] at e2
  simp only [Option.some.injEq, VV.Event.messagesPollStarted.injEq] at e1 e2
  obtain ⟨rfl, rfl⟩ := e2
  subst e1
  obtain ⟨n, hn⟩ := e12 w hw
  obtain ⟨ws2, snap, o1, o2, o3, o4, o5, o6⟩ := e6
  simp only [VV.startedMeta, hev, Option.some.injEq] at o6
  rw [o6, VV.metaOf]
  simp only [OMap.keys]
  rw [o3] at hn
  exact List.mem_map_of_mem (f := Prod.fst) hn

namespace Evm

variable {D : Type}

/-- What a worker's node shows while its daemon handles the event: it answers honestly, and the receipt of the
message's transaction is final and contains the contract call. -/
def Shows (L : Lowering) (decodeLog : D → Option GatewayEvent) (chain : Chain) (confirmations : Nat)
    (gateway : Bytes) (m : Message) (E : Env D) : Prop :=
  Bounded E.node ∧ Honest E.node ∧ Iterates E.order ∧
    ∃ r b, E.node.receipt m.txId = some (some r) ∧ r.blockNumber = some b ∧
      Final chain E.node confirmations b ∧ Emitted L decodeLog gateway r m

/-- C78 with daemons (EVM): let a request open a poll about a message, and let the announcement be readable
(`p`; the message reads as `dm`) and of the daemons' chain.  If a quorum of the workers run the daemon for the
verifier, each with a node that shows the contract call in a final receipt, each handles the announcement
before the poll expires and what it sends gets into a block before the poll expires, then the message is
verified, whatever else happens. -/
theorem C78_evm_daemons_verify (H : VV.Hashes) (cfg : VV.Config) (hv : cfg.Valid) (cs ds : List VV.Call)
    {c : VV.Call} {s' : VV.State} {r : VV.Resp} {ms : List Router.Message} (hm : c.msg = .verifyMessages ms)
    (hx : VV.exec H (VV.stateAfter H cfg cs) c = .ok (s', r)) {m : Router.Message} (hmem : m ∈ ms)
    (hst : VV.msgStatus H (VV.stateAfter H cfg cs) m = .ok .notVerified ∨
      VV.msgStatus H (VV.stateAfter H cfg cs) m = .ok .failedToVerify)
    (hinj : ∀ m' ∈ ms, m'.hash H.msg = m.hash H.msg → m' = m)
    {ws : List Registry.Worker} (hws : c.workers = some ws) {confs : List VV.TxConfirmation}
    {pm : VV.PollMeta} (hev : r.event = some (.messagesPollStarted confs pm)) {cf : VV.TxConfirmation}
    (hcf : VV.confirmationOf m = .ok cf) (hord : VV.InBlockOrder ds)
    (L : Lowering) (R : Reader) (decodeLog : D → Option GatewayEvent) (verifier : Addr) (chain : Chain)
    {p : PollStarted (List Message)} {dm : Message}
    (hp : readMessagesPoll L R (verifier, .messagesPollStarted confs pm) = some p)
    (hdm : readMessage L R cf = some dm)
    (hchain : p.sourceChain.map Char.toLower = chain.show.map Char.toLower)
    (Q : List Addr) (hnd : Q.Nodup) (hQ : ∀ a ∈ Q, ∃ w ∈ ws, w.address = a)
    (hquorum : ws.length * cfg.threshold.num ≤ Q.length * cfg.threshold.den)
    (saw : Addr → Env D → Prop)
    (hshow : ∀ a ∈ Q, ∀ E, saw a E →
      Shows L decodeLog chain pm.confirmationHeight p.sourceGateway dm E)
    (hsend : ∀ a ∈ Q, ∃ E, saw a E ∧ E.latestBlock < pm.expiresAt ∧
      Answers chain E.node pm.confirmationHeight ∧
      ∀ t ∈ (handleMessages L decodeLog (readMessagesPoll L R) ⟨a, verifier, chain⟩ E
          (.abci (announced verifier (.messagesPollStarted confs pm)))).sent,
        ∃ d ∈ ds, ballotCall t d.height = some { d with workers := none } ∧ d.height < pm.expiresAt)
    (hdaemon : ∀ d ∈ ds, d.sender ∈ Q → ∀ vs, d.msg = .vote pm.pollId vs → ∃ E, saw d.sender E ∧
      ⟨d.sender, verifier, .vote pm.pollId vs⟩ ∈
        (handleMessages L decodeLog (readMessagesPoll L R) ⟨d.sender, verifier, chain⟩ E
          (.abci (announced verifier (.messagesPollStarted confs pm)))).sent) :
    VV.msgStatus H (VV.stateAfter H cfg (cs ++ c :: ds)) m = .ok .verified := by
  obtain ⟨q1, q2, q3, q4, q5, q6, q7, q8⟩ := readPoll_some
    (show readPoll L R verifier pm (readAll (readMessage L R) confs) = some p from hp)
  refine VV.C78_votes_verify H cfg hv cs ds hm hx hmem hst hinj hws hev hcf hord Q hnd hQ hquorum ?_ ?_
  · intro a ha
    obtain ⟨E, hE, hlate, hans, hincl⟩ := hsend a ha
    obtain ⟨hb, _, _, _⟩ := hshow a ha E hE
    obtain ⟨w, hw, hwa⟩ := hQ a ha
    have hpart : a ∈ pm.participants := by
      rw [← hwa]; exact announced_participant H hv cs hm hx hmem hst hinj hws hev hw
    obtain ⟨votes, hs, hl, _, _⟩ := (C70_evm_messages L decodeLog (readMessagesPoll L R) ⟨a, verifier, chain⟩ E
      (.abci (announced verifier (.messagesPollStarted confs pm))) hb p
      ⟨⟨_, rfl, rfl, hp⟩, q5, hchain, by rw [q4]; exact hpart, by rw [q3]; exact hlate⟩).1
      (by rw [q6]; exact hans)
    obtain ⟨d, hd, hcall, hh⟩ := hincl _ (by rw [hs]; exact List.mem_cons_self ..)
    simp only [ballotCall, Option.some.injEq] at hcall
    refine ⟨d, hd, votes, ?_, ?_, ?_, hh⟩
    · exact (congrArg VV.Call.sender hcall).symm
    · rw [← q2]; exact (congrArg VV.Call.msg hcall).symm
    · rw [hl, readAll_length q1]
  · intro d hd hdQ vs hvs _ i hi
    obtain ⟨E, hE, ht⟩ := hdaemon d hd hdQ vs hvs
    obtain ⟨hb, hh, ho, hsh⟩ := hshow _ hdQ E hE
    obtain ⟨dm', hdm', hci⟩ := readAll_getElem q1 hi
    rw [hdm] at hdm'
    simp only [Option.some.injEq] at hdm'
    subst hdm'
    exact (C68_exact L decodeLog (readMessagesPoll L R) _ E _ hb hh ho p _ rfl hp _ _ _ ht rfl i dm hci).1
      (by rw [q6]; exact hsh)

/-- All hypotheses hold of a concrete history: workers 1 and 2 run the daemon, worker 3 votes against the
facts. -/
example : VV.msgStatus VV.exH (VV.stateAfter VV.exH VV.exCfg ([] ++ exTrustCalls)) VV.exMsg = .ok .verified := by
  have h1 : exTrustSent 1 = [⟨1, 10, .vote 1 [.succeededOnChain]⟩] := by decide +kernel
  have h2 : exTrustSent 2 = [⟨2, 10, .vote 1 [.succeededOnChain]⟩] := by decide +kernel
  have h12 : ∀ a ∈ [1, 2], exTrustSent a = [⟨a, 10, .vote 1 [.succeededOnChain]⟩] := by
    intro a ha
    simp only [List.mem_cons, List.not_mem_nil, or_false] at ha
    rcases ha with rfl | rfl
    · exact h1
    · exact h2
  refine C78_evm_daemons_verify VV.exH VV.exCfg VV.exCfg_valid [] exTrustCalls.tail (m := VV.exMsg) rfl rfl
    (List.mem_cons_self ..) (Or.inl (by decide)) (by decide) rfl rfl rfl
    (by unfold VV.InBlockOrder; decide) Router.asciiLower exTrustReader some 10 (.other "eth".toList)
    rfl rfl rfl [1, 2] (by decide) (by decide) (by decide) (fun _ E => E = exTrustEnv) ?_ ?_ ?_
  · rintro a ha E rfl
    refine ⟨?_, ?_, fun _ _ => Iff.rfl, exReceipt, 80, rfl, rfl, ⟨100, rfl, by decide⟩, rfl, _,
      List.mem_cons_self .., rfl, rfl, rfl, "avax".toList, rfl, rfl⟩
    · constructor <;> intro x hx <;> (simp [exTrustEnv] at hx; try (subst hx; decide))
    · intro h r hr
      simp only [exTrustEnv, Option.some.injEq] at hr
      split at hr
      · simp only [Option.some.injEq] at hr
        subst hr
        rename_i hh
        subst hh
        exact ⟨rfl, by unfold DistinctLogs exReceipt; simp⟩
      · simp at hr
  · intro a ha
    refine ⟨exTrustEnv, rfl, by decide, ⟨100, rfl, by decide⟩, ?_⟩
    intro t ht
    have ht' : t ∈ exTrustSent a := ht
    rw [h12 a ha] at ht'
    simp only [List.mem_cons, List.not_mem_nil, or_false] at ht' ha
    subst ht'
    rcases ha with rfl | rfl
    · exact ⟨_, List.mem_of_getElem? (i := 0) rfl, rfl, by decide⟩
    · exact ⟨_, List.mem_of_getElem? (i := 2) rfl, rfl, by decide⟩
  · intro d hd hdQ vs hvs
    refine ⟨exTrustEnv, rfl, ?_⟩
    have : (⟨d.sender, 10, .vote 1 vs⟩ : ExecTx) ∈ exTrustSent d.sender := by
      rw [h12 _ hdQ]
      simp only [exTrustCalls, List.tail_cons, List.mem_cons, List.not_mem_nil, or_false] at hd
      rcases hd with rfl | rfl | rfl
      · cases hvs; exact List.mem_cons_self ..
      · simp at hdQ
      · cases hvs; exact List.mem_cons_self ..
    exact this

end Evm

namespace Sui

variable {J : Type}

/-- What a worker's node shows while its daemon handles the event: it answers with the blocks asked for, and
the block of the message's transaction is in a checkpoint and contains the contract call. -/
def Shows (L : Lowering) (P : Json J) (p : PollStarted (List Message)) (m : Message) (E : Env J) : Prop :=
  Evm.Iterates E.order ∧ Honest E.node (E.order (p.content.map Message.txId)) ∧
    ∃ bs, E.node.multiGet (E.order (p.content.map Message.txId)) = some bs ∧
      ∃ b ∈ bs, Emitted L P p.sourceGateway b m

/-- C78 with daemons (Sui). -/
theorem C78_sui_daemons_verify (H : VV.Hashes) (cfg : VV.Config) (hv : cfg.Valid) (cs ds : List VV.Call)
    {c : VV.Call} {s' : VV.State} {r : VV.Resp} {ms : List Router.Message} (hm : c.msg = .verifyMessages ms)
    (hx : VV.exec H (VV.stateAfter H cfg cs) c = .ok (s', r)) {m : Router.Message} (hmem : m ∈ ms)
    (hst : VV.msgStatus H (VV.stateAfter H cfg cs) m = .ok .notVerified ∨
      VV.msgStatus H (VV.stateAfter H cfg cs) m = .ok .failedToVerify)
    (hinj : ∀ m' ∈ ms, m'.hash H.msg = m.hash H.msg → m' = m)
    {ws : List Registry.Worker} (hws : c.workers = some ws) {confs : List VV.TxConfirmation}
    {pm : VV.PollMeta} (hev : r.event = some (.messagesPollStarted confs pm)) {cf : VV.TxConfirmation}
    (hcf : VV.confirmationOf m = .ok cf) (hord : VV.InBlockOrder ds)
    (L : Lowering) (R : Reader) (P : Json J) (verifier : Addr)
    {p : PollStarted (List Message)} {dm : Message}
    (hp : readMessagesPoll L R (verifier, .messagesPollStarted confs pm) = some p)
    (hdm : readMessage L R cf = some dm)
    (Q : List Addr) (hnd : Q.Nodup) (hQ : ∀ a ∈ Q, ∃ w ∈ ws, w.address = a)
    (hquorum : ws.length * cfg.threshold.num ≤ Q.length * cfg.threshold.den)
    (saw : Addr → Env J → Prop)
    (hshow : ∀ a ∈ Q, ∀ E, saw a E → Shows L P p dm E)
    (hsend : ∀ a ∈ Q, ∃ E, saw a E ∧ E.latestBlock < pm.expiresAt ∧
      ∀ t ∈ (handleMessages L P (readMessagesPoll L R) ⟨a, verifier⟩ E
          (.abci (announced verifier (.messagesPollStarted confs pm)))).sent,
        ∃ d ∈ ds, ballotCall t d.height = some { d with workers := none } ∧ d.height < pm.expiresAt)
    (hdaemon : ∀ d ∈ ds, d.sender ∈ Q → ∀ vs, d.msg = .vote pm.pollId vs → ∃ E, saw d.sender E ∧
      ⟨d.sender, verifier, .vote pm.pollId vs⟩ ∈
        (handleMessages L P (readMessagesPoll L R) ⟨d.sender, verifier⟩ E
          (.abci (announced verifier (.messagesPollStarted confs pm)))).sent) :
    VV.msgStatus H (VV.stateAfter H cfg (cs ++ c :: ds)) m = .ok .verified := by
  obtain ⟨q1, q2, q3, q4, q5, q6⟩ := readPoll_some
    (show readPoll R verifier pm (readAll (readMessage L R) confs) = some p from hp)
  refine VV.C78_votes_verify H cfg hv cs ds hm hx hmem hst hinj hws hev hcf hord Q hnd hQ hquorum ?_ ?_
  · intro a ha
    obtain ⟨E, hE, hlate, hincl⟩ := hsend a ha
    obtain ⟨_, _, bs, hbs, _⟩ := hshow a ha E hE
    obtain ⟨w, hw, hwa⟩ := hQ a ha
    have hpart : a ∈ pm.participants := by
      rw [← hwa]; exact announced_participant H hv cs hm hx hmem hst hinj hws hev hw
    obtain ⟨votes, hs, hl, _, _⟩ := (C70_sui_messages L P (readMessagesPoll L R) ⟨a, verifier⟩ E
      (.abci (announced verifier (.messagesPollStarted confs pm))) p
      ⟨⟨_, rfl, rfl, hp⟩, q5, by rw [q4]; exact hpart, by rw [q3]; exact hlate⟩).1
      (by rw [hbs]; rfl)
    obtain ⟨d, hd, hcall, hh⟩ := hincl _ (by rw [hs]; exact List.mem_cons_self ..)
    simp only [ballotCall, Option.some.injEq] at hcall
    refine ⟨d, hd, votes, ?_, ?_, ?_, hh⟩
    · exact (congrArg VV.Call.sender hcall).symm
    · rw [← q2]; exact (congrArg VV.Call.msg hcall).symm
    · rw [hl, readAll_length q1]
  · intro d hd hdQ vs hvs _ i hi
    obtain ⟨E, hE, ht⟩ := hdaemon d hd hdQ vs hvs
    obtain ⟨ho, hh, bs, hbs, hsh⟩ := hshow _ hdQ E hE
    obtain ⟨dm', hdm', hci⟩ := readAll_getElem q1 hi
    rw [hdm] at hdm'
    simp only [Option.some.injEq] at hdm'
    subst hdm'
    exact (C69_exact L P (readMessagesPoll L R) _ E _ p _ rfl hp ho hh _ _ _ ht rfl i dm hci bs hbs).1 hsh

/-! A concrete case. -/

/-- strings are read as their code points -/
def exSuiReader : Reader := ⟨some, fun _ => none, fun _ => none, fun s => some (s.map Char.toNat),
  fun s => some (s.map Char.toNat)⟩

/-- the body of an event is the contract call itself -/
def exSuiJson : Json ContractCall := ⟨some, fun _ => none⟩

/-- the block of the transaction `0xab`: another event, and the contract call -/
def exSuiBlock : TxBlock ContractCall where
  digest := "0xab".toList.map Char.toNat
  checkpoint := some 7
  events := some
    [⟨0, ⟨[9], "gateway".toList, "ContractCall".toList, []⟩,
        ⟨"0xs".toList.map Char.toNat, "avax".toList, "0xe".toList, [7]⟩⟩,
     ⟨1, ⟨"gw".toList.map Char.toNat, "gateway".toList, "ContractCall".toList, []⟩,
        ⟨"0xs".toList.map Char.toNat, "Avax".toList, "0xd".toList, [7]⟩⟩]

/-- the node knows this block only -/
def exSuiEnv : Env ContractCall where
  latestBlock := 101
  node := ⟨fun _ => none, fun ds => if ds = ["0xab".toList.map Char.toNat] then some [exSuiBlock] else none⟩
  accepted := true
  order := id

/-- what worker `w` sends when the poll starts -/
def exSuiSent (w : Addr) : List ExecTx :=
  (handleMessages Router.asciiLower exSuiJson (readMessagesPoll Router.asciiLower exSuiReader) ⟨w, 10⟩ exSuiEnv
    (.abci (announced 10 (.messagesPollStarted
      [⟨"0xab".toList, 1, "0xd".toList, "avax".toList, "0xs".toList, [7]⟩]
      ⟨1, "eth".toList, "gw".toList, 1, 110, [1, 2, 3]⟩)))).sent

example : VV.msgStatus VV.exH (VV.stateAfter VV.exH VV.exCfg ([] ++ Evm.exTrustCalls)) VV.exMsg =
    .ok .verified := by
  have h1 : exSuiSent 1 = [⟨1, 10, .vote 1 [.succeededOnChain]⟩] := by decide +kernel
  have h2 : exSuiSent 2 = [⟨2, 10, .vote 1 [.succeededOnChain]⟩] := by decide +kernel
  have h12 : ∀ a ∈ [1, 2], exSuiSent a = [⟨a, 10, .vote 1 [.succeededOnChain]⟩] := by
    intro a ha
    simp only [List.mem_cons, List.not_mem_nil, or_false] at ha
    rcases ha with rfl | rfl
    · exact h1
    · exact h2
  refine C78_sui_daemons_verify VV.exH VV.exCfg VV.exCfg_valid [] Evm.exTrustCalls.tail (m := VV.exMsg) rfl rfl
    (List.mem_cons_self ..) (Or.inl (by decide)) (by decide) rfl rfl rfl
    (by unfold VV.InBlockOrder; decide) Router.asciiLower exSuiReader exSuiJson 10
    rfl rfl [1, 2] (by decide) (by decide) (by decide) (fun _ E => E = exSuiEnv) ?_ ?_ ?_
  · rintro a ha E rfl
    refine ⟨fun _ _ => Iff.rfl, ⟨[exSuiBlock], rfl, rfl, by simp [exSuiEnv], ?_⟩, [exSuiBlock], rfl, exSuiBlock,
      List.mem_cons_self .., rfl, rfl, _, rfl, _, List.mem_of_getElem? (i := 1) rfl, rfl, rfl, "Avax".toList,
      rfl, rfl⟩
    intro b hb es hes
    simp only [List.mem_cons, List.not_mem_nil, or_false] at hb
    subst hb
    cases hes
    simp
  · intro a ha
    refine ⟨exSuiEnv, rfl, by decide, ?_⟩
    intro t ht
    have ht' : t ∈ exSuiSent a := ht
    rw [h12 a ha] at ht'
    simp only [List.mem_cons, List.not_mem_nil, or_false] at ht' ha
    subst ht'
    rcases ha with rfl | rfl
    · exact ⟨_, List.mem_of_getElem? (i := 0) rfl, rfl, by decide⟩
    · exact ⟨_, List.mem_of_getElem? (i := 2) rfl, rfl, by decide⟩
  · intro d hd hdQ vs hvs
    refine ⟨exSuiEnv, rfl, ?_⟩
    have : (⟨d.sender, 10, .vote 1 vs⟩ : ExecTx) ∈ exSuiSent d.sender := by
      rw [h12 _ hdQ]
      simp only [Evm.exTrustCalls, List.tail_cons, List.mem_cons, List.not_mem_nil, or_false] at hd
      rcases hd with rfl | rfl | rfl
      · cases hvs; exact List.mem_cons_self ..
      · simp at hdQ
      · cases hvs; exact List.mem_cons_self ..
    exact this

end Sui

end Amp.Ampd
