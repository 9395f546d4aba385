import Verif.Wire.PollLogLemmas
import Verif.Wire.EndToEndLemmas
import Verif.Wire.HashProps
import Verif.Chain.EventProps

/-! # C107: what the events of a voting verifier tell -/

namespace Amp.Wire

open Amp.Router (Message)
open Amp.Std (Operators Vote)
open Amp.Chain (Act Entry Params Setup)

variable {G : Texture} {P : Params} {setup : Setup}

/-- the number of a poll that is ended is in range -/
theorem ended_id (H : VV.Hashes) {cfg : VV.Config} (hv : cfg.Valid) (hh : cfg.confirmationHeight ≤ u64Max) (cs : List VV.Call)
    (ht : ∀ c ∈ cs, TypedCall c) (y : VV.Call × VV.Resp) (hy : y ∈ VV.history H cfg cs) {id : Nat} {rs : List (Option Vote)}
    (he : y.2.event = some (.pollEnded id rs)) : id ≤ u64Max := by
  obtain ⟨l₁, l₂, hsplit⟩ := List.append_of_mem hy
  obtain ⟨c, r⟩ := y
  obtain ⟨cs₁, cs₂, s', e1, e2, e3, e4⟩ := outs_split (VV.exec H) hsplit
  have hi := VV.inv_reachable H hv cs₁
  have hx : VV.exec H (VV.stateAfter H cfg cs₁) c = .ok (s', r) := e3
  simp only at he
  have key : ∃ sp, (VV.stateAfter H cfg cs₁).polls id = some sp := by
    unfold VV.exec at hx
    split at hx
    · obtain ⟨_, _, _, _, _, _, _, _, ⟨_, _, he'⟩ | ⟨_, ws, snap, confs, _, _, _, he', _⟩⟩ := VV.verifyMessages_ok hx <;>
        rw [he'] at he <;> simp at he
    · obtain ⟨sp, p, _, _, _, rfl⟩ := VV.vote_ok hx
      simp at he
    · obtain ⟨sp, p, g1, g2, _, rfl⟩ := VV.endPoll_ok hx
      simp only [Option.some.injEq, VV.Event.pollEnded.injEq] at he
      obtain ⟨_, _, rfl⟩ := Std.Poll.finish_ok g2
      have : sp.poll.pollId = id := he.1
      rw [(hi.polls _ sp g1).pid] at this
      exact ⟨sp, this ▸ g1⟩
    · obtain ⟨_, ws, snap, tx, n, _, _, _, rfl, _⟩ := VV.verifyWorkerSet_ok hx
      simp at he
  obtain ⟨sp, hsp⟩ := key
  obtain ⟨c0, r0, hmem, ws, snap, _, _, _, _, _, hm⟩ := (hi.polls _ sp hsp).opened
  have hfit := fun ev hev => C94_verifier_fits H cfg hh cs₁
    (fun d hd => ht d (by rw [e1]; exact List.mem_append_left _ hd)) (c0, r0) hmem ev hev
  unfold VV.startedMeta at hm
  split at hm
  · rename_i confs pm hev
    simp only [Option.some.injEq] at hm
    have := (hfit _ hev).1.pollId
    rw [hm] at this
    exact this
  · rename_i tx n o pm hev
    simp only [Option.some.injEq] at hm
    have := (hfit _ hev).1.pollId
    rw [hm] at this
    exact this
  · simp at hm

/-- the events of a verifier are read back -/
theorem verifier_heard (hG : Sound G) (hX : ∀ b, IsBytes (P.X.keccak b)) (hf : Founded G setup) (ts : List TextTx)
    (hb : ∀ t ∈ ts, InRange t) (horder : Chain.InOrder (ts.map (meaning G setup))) {V : Addr} {vc : VV.Config}
    (hV : setup V = some (.verifier vc)) :
    ∃ cs, VV.InBlockOrder cs ∧ vc.Valid ∧
      textWorldAfter G P setup ts V = some (.verifier (VV.stateAfter P.H vc cs)) ∧
      watchVerifier G.finite G.T V (eventStream G.T (textLog G P setup ts)) = heardPolls (VV.history P.H vc cs) ∧
      ∀ x ∈ VV.history P.H vc cs, TypedCall x.1 ∧
        ∃ e ∈ textLog G P setup ts, e.p.target = V ∧ e.p.msg = .verifier x.1.msg := by
  obtain ⟨hs, -, hvalid, -⟩ := C104_setup hf
  have hv := hvalid V vc hV
  have hh := founded_height hf hV
  have hd := C95_delivered (P := P) hG hX hs ts hb
  obtain ⟨hw, hl⟩ := C95_history (P := P) hG hX hs ts hb
  rw [hl] at hd
  rw [hw, hl]
  have hi := Chain.inv P setup (ts.map (meaning G setup))
  have hord := (Chain.calls_inOrder P setup V (ts.map (meaning G setup)) horder).1
  generalize Chain.log P setup (ts.map (meaning G setup)) = l at hd hi hord ⊢
  have hcall : ∀ e ∈ l, e.p.target = V → ∃ c r, e.act = .verifier c r ∧ e.p.msg = .verifier c.msg ∧ TypedCall c := by
    intro e he ht
    obtain ⟨l₁, l₂, hsplit⟩ := List.append_of_mem he
    obtain ⟨c, r, a1, -, a3, -⟩ := hi.verifier_call hsplit hv (by rw [ht]; exact hV)
    have hty := hd e he
    rw [a3] at hty
    refine ⟨c, r, a1, a3, fun ms hms m hm => ?_, fun mid o hmo => ?_⟩
    · rw [hms] at hty; exact (hty m hm).payloadHash
    · rw [hmo] at hty; exact hty.2
  have hty : ∀ c ∈ Chain.verifierCalls V l, TypedCall c := by
    intro d hd'
    obtain ⟨x, hx, hxd⟩ := List.mem_filterMap.mp hd'
    obtain ⟨e, he, ht, rfl⟩ := Chain.mem_actsAt hx
    obtain ⟨c, r, a1, -, a3⟩ := hcall e he ht
    rw [a1] at hxd
    simp only [Chain.Act.verifierCall?, Option.some.injEq] at hxd
    exact hxd ▸ a3
  have hacts : Chain.actsAt V l = (VV.history P.H vc (Chain.verifierCalls V l)).map (fun e => .verifier e.1 e.2) :=
    hi.acts V _ hV
  refine ⟨Chain.verifierCalls V l, hord, hv, hi.verifier_state hV, ?_, ?_⟩
  · unfold watchVerifier heardPolls
    rw [verifier_news hG.faithful, hacts, List.flatMap_map]
    · rfl
    · intro e he ht
      obtain ⟨c, r, a1, -, -⟩ := hcall e he ht
      refine ⟨c, r, a1, fun ev hev => ?_⟩
      have hm : e.act ∈ Chain.actsAt V l := ht ▸ Chain.actsAt_mem he
      rw [hacts] at hm
      obtain ⟨y, hy, e1⟩ := List.mem_map.mp hm
      rw [a1, Chain.Act.verifier.injEq] at e1
      have hev' : y.2.event = some ev := by rw [e1.2]; exact hev
      refine ⟨C94_verifier_fits P.H vc hh _ hty y hy ev hev', ?_⟩
      rintro id rs rfl
      exact ended_id P.H hv hh _ hty y hy hev'
  · intro x hx
    obtain ⟨e, he, ht, ha⟩ := hi.verifier_entry hV hx
    obtain ⟨c, r, a1, a2, a3⟩ := hcall e he ht
    rw [ha, Chain.Act.verifier.injEq] at a1
    exact ⟨a1.1 ▸ a3, e, he, ht, by rw [a2, a1.1]⟩

/-- what a verifier says of a message whose poll was ended -/
theorem told_message {H : VV.Hashes} {cfg : VV.Config} (hv : cfg.Valid) {cs : List VV.Call} (ho : VV.InBlockOrder cs)
    {m : Message} {cf : VV.TxConfirmation} (hcf : VV.confirmationOf m = .ok cf)
    (hu : ∀ x ∈ VV.history H cfg cs, ∀ ms, x.1.msg = .verifyMessages ms → ∀ m' ∈ ms,
      m'.hash H.msg = m.hash H.msg ∨ VV.confirmationOf m' = .ok cf → m' = m) :
    ∃ b, VV.isVerified H (VV.stateAfter H cfg cs) [m] = .ok [(m.ccId, b)] ∧
      ((heardPolls (VV.history H cfg cs)).messages cf = none → b = false) ∧
      ∀ id i rs, (heardPolls (VV.history H cfg cs)).messages cf = some (id, i) →
        (heardPolls (VV.history H cfg cs)).results id = some rs →
        (b = true ↔ rs[i]? = some (some .succeededOnChain)) := by
  have hi := VV.inv_reachable H hv cs
  rw [messages_heard H cfg hcf cs hu]
  have hres := (results_heard H cfg hv cs ho).1
  cases hp : (VV.stateAfter H cfg cs).pollMessages (m.hash H.msg) with
  | none =>
    refine ⟨false, ?_, fun _ => rfl, by simp⟩
    simp [VV.isVerified, VV.isVerified1, VV.msgStatus, hp, VV.verificationStatus, mapE]
  | some pc =>
    obtain ⟨h1, _, sp, c, r, batch, confs, pm, cf', h2, _, h3, h4, _, h5, h6, _, _, _⟩ := hi.msgs _ pc hp
    have hc : pc.content = m := hu (c, r) h4 batch h5 pc.content h6 (Or.inl h1)
    have hlen : pc.index < sp.poll.tallies.length := by rw [(hi.polls _ sp h2).reach.wf.size]; exact h3
    have hcons : sp.poll.consensus pc.index = .ok (sp.poll.tallies[pc.index].consensus sp.poll.quorum) := by
      simp [Std.Poll.consensus, hlen]
    have hst : VV.msgStatus H (VV.stateAfter H cfg cs) m = .ok (
        if sp.poll.tallies[pc.index].consensus sp.poll.quorum = some .succeededOnChain then .verified
        else if sp.poll.status = .finished then .failedToVerify else .inProgress) := by
      unfold VV.msgStatus VV.verificationStatus
      rw [hp]
      simp only [hc, ne_eq, not_true, if_false, h2, hcons]
      split
      · rfl
      · split <;> rfl
    refine ⟨decide (sp.poll.tallies[pc.index].consensus sp.poll.quorum = some .succeededOnChain), ?_, by simp, ?_⟩
    · simp only [VV.isVerified, mapE, VV.isVerified1, hst]
      split
      · rename_i h; simp [h]
      · rename_i h
        split <;> simp [h]
    · intro id i rs e1 e2
      simp only [Option.map_some, Option.some.injEq, Prod.mk.injEq] at e1
      obtain ⟨rfl, rfl⟩ := e1
      rw [hres, h2] at e2
      simp only [Option.bind_some] at e2
      split at e2
      · simp only [Option.some.injEq] at e2
        subst e2
        simp [Std.Poll.state, hlen]
      · simp at e2

/-- what a verifier says of a worker set whose poll was ended -/
theorem told_set {H : VV.Hashes} {cfg : VV.Config} (hv : cfg.Valid) {cs : List VV.Call} (ho : VV.InBlockOrder cs)
    {o : Operators} (hu : ∀ x ∈ VV.history H cfg cs, ∀ mid o', x.1.msg = .verifyWorkerSet mid o' → H.ops o' = H.ops o → o' = o) :
    ∃ b, VV.isWorkerSetVerified H (VV.stateAfter H cfg cs) o = .ok b ∧
      ((heardPolls (VV.history H cfg cs)).workerSets o = none → b = false) ∧
      ∀ id rs, (heardPolls (VV.history H cfg cs)).workerSets o = some id →
        (heardPolls (VV.history H cfg cs)).results id = some rs → (b = true ↔ rs = [some .succeededOnChain]) := by
  have hi := VV.inv_reachable H hv cs
  rw [sets_heard H cfg cs hu]
  have hres := (results_heard H cfg hv cs ho).1
  cases hp : (VV.stateAfter H cfg cs).pollWorkerSets (H.ops o) with
  | none =>
    refine ⟨false, ?_, fun _ => rfl, by simp⟩
    simp [VV.isWorkerSetVerified, VV.opsStatus, hp, VV.verificationStatus]
  | some pc =>
    obtain ⟨h1, h0, sp, c, r, mid, tx, n, pm, h2, _, h3, h4, _, h5, _, _⟩ := hi.sets _ pc hp
    have hc : pc.content = o := hu (c, r) h4 mid pc.content h5 h1
    have hsize := (hi.polls _ sp h2).reach.wf.size
    rw [h3] at hsize
    obtain ⟨t, htal⟩ := List.length_eq_one_iff.mp hsize
    have hcons : sp.poll.consensus pc.index = .ok (t.consensus sp.poll.quorum) := by
      simp [Std.Poll.consensus, h0, htal]
    have hst : VV.opsStatus H (VV.stateAfter H cfg cs) o = .ok (
        if t.consensus sp.poll.quorum = some .succeededOnChain then .verified
        else if sp.poll.status = .finished then .failedToVerify else .inProgress) := by
      unfold VV.opsStatus VV.verificationStatus
      rw [hp]
      simp only [hc, ne_eq, not_true, if_false, h2, hcons]
      split
      · rfl
      · split <;> rfl
    refine ⟨decide (t.consensus sp.poll.quorum = some .succeededOnChain), ?_, by simp, ?_⟩
    · simp only [VV.isWorkerSetVerified, hst]
      split
      · rename_i h; simp [h]
      · rename_i h
        split <;> simp [h]
    · intro id rs e1 e2
      simp only [Option.map_some, Option.some.injEq] at e1
      subst e1
      rw [hres, h2] at e2
      simp only [Option.bind_some] at e2
      split at e2
      · simp only [Option.some.injEq] at e2
        subst e2
        simp [Std.Poll.state, htal]
      · simp at e2

/-- C107: the events of a verifier tell what it answers to `IsVerified` about a message, if no poll was about it, or if the last
poll about it was ended: the result of that poll for it.  (Ids of messages are written canonically, and no other message that
the verifier was asked to verify has the same hash.) -/
theorem C107_verifier (hG : Sound G) (hX : ∀ b, IsBytes (P.X.keccak b)) (hf : Founded G setup) (ts : List TextTx)
    (hb : ∀ t ∈ ts, InRange t) (horder : Chain.InOrder (ts.map (meaning G setup))) (V : Addr) (vc : VV.Config)
    (hV : setup V = some (.verifier vc)) (k : PollsKnown)
    (hk : k = watchVerifier G.finite G.T V (eventStream G.T (textLog G P setup ts)))
    (m : Message) (hchain : m.ccId.chain = vc.sourceChain) (hid : Chain.CanonicalId (fun _ => True) m.ccId.id)
    (hother : ∀ m', AskedToVerify (textLog G P setup ts) V m' →
      Chain.CanonicalId (fun _ => True) m'.ccId.id ∧ (m'.hash P.H.msg = m.hash P.H.msg → m' = m))
    (cf : VV.TxConfirmation) (hcf : VV.confirmationOf m = .ok cf) :
    ∃ b, Chain.askVerifier P (textWorldAfter G P setup ts) V [m] = some [(m.ccId, b)] ∧
      (k.messages cf = none → b = false) ∧
      ∀ id i rs, k.messages cf = some (id, i) → k.results id = some rs →
        (b = true ↔ rs[i]? = some (some .succeededOnChain)) := by
  obtain ⟨cs, ho, hv, hw, hkn, hfrom⟩ := verifier_heard (P := P) hG hX hf ts hb horder hV
  have hu : ∀ x ∈ VV.history P.H vc cs, ∀ ms, x.1.msg = .verifyMessages ms → ∀ m' ∈ ms,
      m'.hash P.H.msg = m.hash P.H.msg ∨ VV.confirmationOf m' = .ok cf → m' = m := by
    intro x hx ms hms m' hm' h
    obtain ⟨-, e, he, ht, hmsg⟩ := hfrom x hx
    rw [hms] at hmsg
    obtain ⟨hcan, hhash⟩ := hother m' ⟨e, he, ht, ms, hmsg, hm'⟩
    rcases h with h | h
    · exact hhash h
    · obtain ⟨cs₁, cs₂, s', -, hex⟩ := outs_mem (VV.exec P.H) hx
      have hch : m'.ccId.chain = vc.sourceChain := by
        have hcfg : (runCalls (VV.exec P.H) (VV.init vc) cs₁).config = vc := (VV.inv_reachable P.H hv cs₁).config
        simp only [VV.exec, hms] at hex
        rw [(VV.verifyMessages_ok hex).2.1 m' hm', hcfg]
      obtain ⟨tx, n, -, a2, a3, a4, a5⟩ := hid
      obtain ⟨tx', n', -, b2, b3, b4, b5⟩ := hcan
      unfold VV.confirmationOf at h hcf
      rw [a5, Chain.parseMessageId_canonical a2 a3 a4] at hcf
      rw [b5, Chain.parseMessageId_canonical b2 b3 b4] at h
      simp only [Except.ok.injEq] at h hcf
      rw [← hcf] at h
      simp only [VV.TxConfirmation.mk.injEq] at h
      obtain ⟨rfl, rfl, h3, h4, h5, h6⟩ := h
      obtain ⟨⟨c1, i1⟩, s1, d1, da1, p1⟩ := m
      obtain ⟨⟨c2, i2⟩, s2, d2, da2, p2⟩ := m'
      simp only at *
      subst h3 h4 h5 h6 a5 b5 hchain hch
      rfl
  obtain ⟨b, h1, h2, h3⟩ := told_message hv ho hcf hu
  rw [hk, hkn]
  refine ⟨b, ?_, h2, h3⟩
  unfold Chain.askVerifier
  rw [hw]
  simp only [h1]
  rfl

/-- C107: the events of a verifier tell what it answers to `IsWorkerSetVerified`, if no poll was about the set, or if the last poll
about it was ended: whether that poll succeeded.  (Unless another set was polled whose text has the same Keccak-256 hash.) -/
theorem C107_worker_set (hG : Sound G) (hH : Hashed G.T P) (hf : Founded G setup) (ts : List TextTx)
    (hb : ∀ t ∈ ts, InRange t) (horder : Chain.InOrder (ts.map (meaning G setup))) (V : Addr) (vc : VV.Config)
    (hV : setup V = some (.verifier vc)) (k : PollsKnown)
    (hk : k = watchVerifier G.finite G.T V (eventStream G.T (textLog G P setup ts)))
    (o : Operators) (hfit : OperatorsFit o) :
    (∃ b, Chain.askSet P (textWorldAfter G P setup ts) V o = .ok b ∧ (k.workerSets o = none → b = false) ∧
      ∀ id rs, k.workerSets o = some id → k.results id = some rs → (b = true ↔ rs = [some .succeededOnChain])) ∨
    ∃ o', AskedToConfirm (textLog G P setup ts) V o' ∧ o' ≠ o ∧ Collide P (operatorsBytes o') (operatorsBytes o) := by
  obtain ⟨cs, ho, hv, hw, hkn, hfrom⟩ := verifier_heard (P := P) hG hH.bytes hf ts hb horder hV
  by_cases hcol : ∃ o', AskedToConfirm (textLog G P setup ts) V o' ∧ o' ≠ o ∧
      Collide P (operatorsBytes o') (operatorsBytes o)
  · exact Or.inr hcol
  left
  have hu : ∀ x ∈ VV.history P.H vc cs, ∀ mid o', x.1.msg = .verifyWorkerSet mid o' → P.H.ops o' = P.H.ops o → o' = o := by
    intro x hx mid o' hm h
    obtain ⟨hty, e, he, ht, hmsg⟩ := hfrom x hx
    rw [hm] at hmsg
    rcases C97_operators hH o' o (hty.2 mid o' hm) hfit h with h | h
    · exact h
    · by_contra hne
      exact hcol ⟨o', ⟨e, he, ht, mid, hmsg⟩, hne, h⟩
  obtain ⟨b, h1, h2, h3⟩ := told_set hv ho hu
  rw [hk, hkn]
  refine ⟨b, ?_, h2, h3⟩
  unfold Chain.askSet
  rw [hw]
  simp only [h1]

end Amp.Wire
