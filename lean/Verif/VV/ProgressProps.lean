import Verif.VV.Props
import Mathlib.Data.List.Perm.Subperm
import Mathlib.Data.List.Induction

/-!
# C78, C79: a quorum of votes is enough

The converse of C09 and C16: not only does "verified" mean that a quorum voted, a quorum of votes also
makes the message verified, whatever else happens on the chain.  For worker sets this is false.
-/

namespace Amp.VV

open Amp.Std Amp.Router Amp.Registry OMap

/-- The calls happen in the order of the blocks that contain them. -/
def InBlockOrder (cs : List Call) : Prop := (cs.map Call.height).Pairwise (· ≤ ·)

/-! ### accepted votes are recorded -/

theorem vote_recorded (H : Hashes) {cfg : Config} (hv : cfg.Valid) (cs : List Call) :
    ∀ e ∈ history H cfg cs, ∀ id vs, e.1.msg = .vote id vs →
      ∃ sp, (stateAfter H cfg cs).polls id = some sp ∧ sp.poll.ballot e.1.sender = some vs := by
  have := outs_inv (P := fun log s => Inv H cfg log s ∧ ∀ e ∈ log, ∀ id vs, e.1.msg = .vote id vs →
      ∃ sp, s.polls id = some sp ∧ sp.poll.ballot e.1.sender = some vs) (exec H) (init cfg)
    ⟨inv_init H cfg, by simp⟩ ?_ cs
  · exact this.2
  · rintro log s c s' r ⟨hi, hb⟩ hx
    refine ⟨inv_step hv hi hx, ?_⟩
    intro e he id vs hm
    rcases List.mem_append.mp he with he | he
    · obtain ⟨sp, h1, h2⟩ := hb e he id vs hm
      obtain ⟨sp', g1, _, _, _, _, _, _, g8, _⟩ := poll_persists (exec_pollStep hx) hi h1
      refine ⟨sp', g1, ?_⟩
      rcases g8 with e' | ⟨o, e'⟩
      · rw [e']; exact h2
      · rcases Poll.exec_ballot e' e.1.sender with h | ⟨h, _⟩
        · rw [h]; exact h2
        · rw [h] at h2; simp at h2
    · simp only [List.mem_singleton] at he
      subst he
      simp only at hm ⊢
      simp only [exec, hm] at hx
      obtain ⟨sp, p, h1, h2, rfl, _⟩ := vote_ok hx
      refine ⟨_, KV.set_self _ _ _, ?_⟩
      rw [Poll.castVote_ballot h2]
      simp

/-! ### a quorum of recorded ballots is a consensus -/

theorem length_le_of_nodup_subset {l l' : List Addr} (hn : l.Nodup) (hs : ∀ a ∈ l, a ∈ l') :
    l.length ≤ l'.length := (List.subperm_of_subset hn hs).length_le

theorem consensus_of_quorumOf {H : Hashes} {cfg : Config} (hv : cfg.Valid) (cs : List Call)
    {id i : Nat} {sp : StoredPoll} (hsp : (stateAfter H cfg cs).polls id = some sp) {c : Call}
    {r : Resp} (hop : OpenedBy cfg c r id sp) {ws : List Worker} (hw : c.workers = some ws)
    {limit : Nat} (hq : QuorumOf cfg.threshold (history H cfg cs) ws id i limit)
    (hlt : i < sp.poll.pollSize) :
    sp.poll.consensus i = .ok (some .succeededOnChain) := by
  have hi := inv_reachable H hv cs
  obtain ⟨ws', snap, h1, h2, h3, h4, h5, h6⟩ := hop
  rw [hw] at h1
  simp only [Option.some.injEq] at h1
  subst h1
  have hpi := hi.polls id sp hsp
  rw [C06_consensus_iff hpi.reach hlt]
  obtain ⟨voters, hnd, hvot, hlen⟩ := hq
  have hw1 : ∀ e ∈ sp.poll.participation, e.2.weight = 1 := by
    rintro ⟨k, x⟩ hx
    have hvot : (k, x.weight) ∈ sp.poll.voters := List.mem_map.mpr ⟨(k, x), hx, rfl⟩
    rw [h3, (Snapshot.new_ok h2).2.2.2.2] at hvot
    obtain ⟨w, hw, he⟩ := List.mem_map.mp (mem_of_mem_ofList hvot)
    simp only [Prod.mk.injEq] at he
    exact he.2.symm
  have hcount : sp.poll.votedWeight i .succeededOnChain =
      (sp.poll.participation.filter (fun e => votesFor i .succeededOnChain e.2)).length := by
    unfold Poll.votedWeight
    revert hw1
    generalize sp.poll.participation = l
    intro hw1
    induction l with
    | nil => rfl
    | cons e t ih =>
      rw [sumBy_cons, ih (fun x hx => hw1 x (by simp [hx])), List.filter_cons]
      split
      · rw [hw1 e (by simp)]; simp; omega
      · omega
  have hle : voters.length ≤ sp.poll.votedWeight i .succeededOnChain := by
    rw [hcount, ← List.length_map (f := Prod.fst)]
    apply length_le_of_nodup_subset hnd
    intro a ha
    obtain ⟨c', r', vs, g1, g2, g3, g4, _⟩ := (hvot a ha).2
    obtain ⟨sp', e1, e2⟩ := vote_recorded H hv cs _ g1 id vs g3
    rw [hsp] at e1
    simp only [Option.some.injEq] at e1
    subst e1
    simp only [g2] at e2
    unfold Poll.ballot at e2
    cases hg : sp.poll.participation.get? a with
    | none => rw [hg] at e2; simp at e2
    | some part =>
      rw [hg] at e2
      simp only [Option.bind_some] at e2
      refine List.mem_map.mpr ⟨(a, part), List.mem_filter.mpr ⟨mem_of_get? hg, ?_⟩, rfl⟩
      unfold votesFor
      simp [e2, g4]
  have htw : totalWeight (ws.map (fun w => (w.address, 1))) = ws.length := by
    unfold totalWeight
    induction ws with
    | nil => rfl
    | cons w t _ => simp [Function.comp_def]; omega
  have hmaj := (Snapshot.majority hv h2).2.2 voters.length
  rw [htw] at hmaj
  rw [h4]
  exact le_trans (hmaj.mpr hlen) hle

/-! ### a finished poll does not change any more -/

theorem finished_fixed {s s' : State} {c : Call} {r : Resp} (hst : PollStep s s' c r)
    {cfg : Config} {log : List (Call × Resp)} {H : Hashes} (hi : Inv H cfg log s) {id : Nat}
    {sp : StoredPoll} (h : s.polls id = some sp) (hf : sp.poll.status = .finished)
    (hh : sp.poll.expiresAt ≤ c.height) : s'.polls id = some sp := by
  cases hst with
  | same hp hl hs hm => rw [hp]; exact h
  | opened k ws snap n hw hsn hp hl hs hm =>
    rw [hp, KV.set_ne, h]
    have := (hi.bound id sp h).2
    omega
  | op id' sp0 o p hsp hx hp hl hs ho =>
    rw [hp, KV.set_apply]
    by_cases hid : id = id'
    · subst hid
      rw [hsp] at h
      simp only [Option.some.injEq] at h
      subst h
      exfalso
      refine exec_noop_of_finished hf ?_ p () hx
      rcases ho with ⟨vs, _, rfl, _⟩ | ⟨_, rfl, _⟩ <;> exact hh
    · rw [if_neg hid]; exact h

/-- if a poll that was there is finished after a step, it was before, or the step came after its expiry -/
theorem finished_cause {s s' : State} {c : Call} {r : Resp} (hst : PollStep s s' c r)
    {cfg : Config} {log : List (Call × Resp)} {H : Hashes} (hi : Inv H cfg log s) {id : Nat}
    {sp sp' : StoredPoll} (h : s.polls id = some sp) (h' : s'.polls id = some sp')
    (hf : sp'.poll.status = .finished) :
    sp.poll.status = .finished ∨ sp.poll.expiresAt ≤ c.height := by
  cases hst with
  | same hp hl hs hm =>
    rw [hp, h] at h'; simp only [Option.some.injEq] at h'; subst h'; exact Or.inl hf
  | opened k ws snap n hw hsn hp hl hs hm =>
    have hne : id ≠ s.lastPollId + 1 := by have := (hi.bound id sp h).2; omega
    rw [hp, KV.set_ne _ _ hne, h] at h'
    simp only [Option.some.injEq] at h'; subst h'; exact Or.inl hf
  | op id' sp0 o p hsp hx hp hl hs ho =>
    rw [hp, KV.set_apply] at h'
    by_cases hid : id = id'
    · subst hid
      rw [hsp] at h
      simp only [Option.some.injEq] at h
      subst h
      simp only [if_true, Option.some.injEq] at h'
      subst h'
      rcases ho with ⟨vs, _, rfl, _⟩ | ⟨_, rfl, _⟩
      · left
        rcases Poll.exec_ok hx with ⟨_, _, _, _, hc⟩ | ⟨_, hc, _⟩
        · obtain ⟨_, _, _, _, _, rfl⟩ := Poll.castVote_ok hc
          exact hf
        · simp at hc
      · right
        rcases Poll.exec_ok hx with ⟨_, _, _, hc, _⟩ | ⟨_, hc, hfin⟩
        · simp at hc
        · simp only [PollOp.finish.injEq] at hc
          subst hc
          exact (Poll.finish_ok hfin).2.1
    · rw [if_neg hid, h] at h'
      simp only [Option.some.injEq] at h'; subst h'; exact Or.inl hf

/-! ### what becomes of a polled message -/

/-- The message is recorded for item `j` of poll `id`, or that poll ended without success for it. -/
def Tracked (H : Hashes) (m : Message) (id j : Nat) (s : State) : Prop :=
  ∃ pc sp, s.pollMessages (m.hash H.msg) = some pc ∧ pc.content = m ∧ s.polls id = some sp ∧
    ((pc.pollId = id ∧ pc.index = j) ∨
      (sp.poll.status = .finished ∧ sp.poll.consensus j ≠ .ok (some .succeededOnChain)))

theorem tracked_step {H : Hashes} {cfg : Config} {log : List (Call × Resp)} {s s' : State} {c : Call}
    {r : Resp} (hi : Inv H cfg log s) (hx : exec H s c = .ok (s', r)) {m : Message} {id j : Nat}
    (hfin : ∀ sp, s.polls id = some sp → sp.poll.status = .finished → sp.poll.expiresAt ≤ c.height)
    (h : Tracked H m id j s) : Tracked H m id j s' := by
  obtain ⟨pc, sp, h1, h2, h3, h4⟩ := h
  have hst := exec_pollStep hx
  obtain ⟨sp', g1, _⟩ := poll_persists hst hi h3
  have hkeep : s'.pollMessages (m.hash H.msg) = s.pollMessages (m.hash H.msg) →
      Tracked H m id j s' := by
    intro he
    refine ⟨pc, sp', by rw [he]; exact h1, h2, g1, ?_⟩
    rcases h4 with h4 | ⟨h4, h5⟩
    · exact Or.inl h4
    · have := finished_fixed hst hi h3 h4 (hfin sp h3 h4)
      rw [this] at g1
      simp only [Option.some.injEq] at g1
      subst g1
      exact Or.inr ⟨h4, h5⟩
  cases hm : c.msg with
  | vote id vs =>
    simp only [exec, hm] at hx
    obtain ⟨_, _, _, _, rfl, _⟩ := vote_ok hx; exact hkeep rfl
  | endPoll id =>
    simp only [exec, hm] at hx
    obtain ⟨_, _, _, _, rfl, _⟩ := endPoll_ok hx; exact hkeep rfl
  | verifyWorkerSet mid o =>
    simp only [exec, hm] at hx
    obtain ⟨_, _, _, _, _, _, _, _, _, rfl⟩ := verifyWorkerSet_ok hx; exact hkeep rfl
  | verifyMessages ms =>
    simp only [exec, hm] at hx
    obtain ⟨_, _, ans, sts, _, _, _, _, ⟨_, rfl, _⟩ | ⟨_, ws, snap, confs, _, hsn, _, _, rfl⟩⟩ :=
      verifyMessages_ok hx
    · exact hkeep rfl
    by_cases hex : ∀ m' ∈ pending H s ms, m'.hash H.msg ≠ m.hash H.msg
    · exact hkeep (saveMessages_other hex)
    · simp only [not_forall, not_not] at hex
      obtain ⟨m', hm', he⟩ := hex
      -- a message recorded for a poll is polled again only if that poll failed
      have hpend : ∀ m' ∈ pending H s ms, m'.hash H.msg = m.hash H.msg →
          m' = m ∧ msgStatus H s m = .ok .failedToVerify := by
        intro m' hm' he
        have hst' := (mem_pending.mp hm').2
        unfold msgStatus at hst'
        rw [he, h1] at hst'
        have hcm : pc.content = m' := by
          by_contra hne
          simp [verificationStatus, hne] at hst'
        rw [h2] at hcm
        subst hcm
        refine ⟨rfl, ?_⟩
        unfold msgStatus
        rw [h1]
        rcases hst' with h | h
        · exfalso
          unfold verificationStatus at h
          simp only [h2, ne_eq, not_true_eq_false, if_false] at h
          split at h
          · simp at h
          · split at h
            · simp at h
            · split at h
              · simp at h
              · split at h <;> simp at h
        · exact h
      obtain ⟨_, hfail⟩ := hpend m' hm' he
      rw [← he] at h1
      obtain ⟨pc', e1, e2, e3, e4, e5⟩ := saveMessages_mem (H := H) (id := s.lastPollId + 1) (i := 0)
        (kv := s.pollMessages) hm'
      have hpc' : pc'.content = m := (hpend _ (List.mem_of_getElem? e4) (by rw [e5, he])).1
      refine ⟨pc', sp', by rw [← he]; exact e1, hpc', g1, Or.inr ?_⟩
      have hbad : sp.poll.status = .finished ∧ sp.poll.consensus j ≠ .ok (some .succeededOnChain) := by
        rcases h4 with ⟨f1, f2⟩ | h4
        · unfold msgStatus verificationStatus at hfail
          rw [he] at h1
          simp only [h1, h2, ne_eq, not_true_eq_false, if_false, f1, h3, f2] at hfail
          split at hfail
          · simp at hfail
          · rename_i rr hr
            split at hfail
            · simp at hfail
            · rename_i hns
              split at hfail
              · rename_i hf
                refine ⟨hf, ?_⟩
                rw [hr]
                intro hc
                simp only [Except.ok.injEq] at hc
                exact hns hc
              · simp at hfail
        · exact h4
      have := finished_fixed hst hi h3 hbad.1 (hfin sp h3 hbad.1)
      rw [this] at g1
      simp only [Option.some.injEq] at g1
      subst g1
      exact hbad

theorem tracked_run {H : Hashes} {cfg : Config} (hv : cfg.Valid) {m : Message} {id j : Nat}
    (ds : List Call) : ∀ {log : List (Call × Resp)} {s : State}, Inv H cfg log s →
    InBlockOrder ds →
    (∀ sp, s.polls id = some sp → sp.poll.status = .finished →
      ∀ d ∈ ds, sp.poll.expiresAt ≤ d.height) →
    Tracked H m id j s → Tracked H m id j (runCalls (exec H) s ds) := by
  induction ds with
  | nil => intro log s _ _ _ h; exact h
  | cons d ds ih =>
    intro log s hi hord hfin h
    rw [runCalls_cons]
    have hord' : InBlockOrder ds := (List.pairwise_cons.mp hord).2
    have hle : ∀ x ∈ ds, d.height ≤ x.height := fun x hx =>
      (List.pairwise_cons.mp hord).1 _ (List.mem_map_of_mem hx)
    cases hx : exec H s d with
    | error e => exact ih hi hord' (fun sp h1 h2 x hx => hfin sp h1 h2 x (by simp [hx])) h
    | ok y =>
      obtain ⟨s', r⟩ := y
      refine ih (inv_step hv hi hx) hord' ?_ (tracked_step hi hx
        (fun sp h1 h2 => hfin sp h1 h2 d (by simp)) h)
      intro sp' h1 h2 x hxm
      change s'.polls id = some sp' at h1
      obtain ⟨pc, sp, _, _, h3, _⟩ := h
      obtain ⟨sp'', g1, _, _, _, g5, _⟩ := poll_persists (exec_pollStep hx) hi h3
      rw [h1] at g1
      simp only [Option.some.injEq] at g1
      subst g1
      rw [g5]
      rcases finished_cause (exec_pollStep hx) hi h3 h1 h2 with hf | hf
      · exact hfin sp h3 hf x (by simp [hxm])
      · exact le_trans hf (hle x hxm)

/-! ### C78 -/

/-- the poll that a call opened, and the place of a message in it -/
theorem opened_tracks (H : Hashes) {cfg : Config} (hv : cfg.Valid) (cs : List Call) {c : Call}
    {s' : State} {r : Resp} {ms : List Message} (hm : c.msg = .verifyMessages ms)
    (hx : exec H (stateAfter H cfg cs) c = .ok (s', r)) {m : Message} (hmem : m ∈ ms)
    (hst : msgStatus H (stateAfter H cfg cs) m = .ok .notVerified ∨
      msgStatus H (stateAfter H cfg cs) m = .ok .failedToVerify)
    (hinj : ∀ m' ∈ ms, m'.hash H.msg = m.hash H.msg → m' = m) :
    ∃ ws confs pm cf j sp, c.workers = some ws ∧ r.event = some (.messagesPollStarted confs pm) ∧
      confirmationOf m = .ok cf ∧ confs[j]? = some cf ∧ s'.polls pm.pollId = some sp ∧
      OpenedBy cfg c r pm.pollId sp ∧ sp.poll.status = .inProgress ∧
      sp.poll.pollSize = confs.length ∧ pm.expiresAt = c.height + cfg.blockExpiry ∧
      sp.poll.expiresAt = pm.expiresAt ∧ (∀ w ∈ ws, ∃ n, (w.address, n) ∈ sp.poll.voters) ∧
      (∀ a, sp.poll.ballot a = none) ∧ (stateAfter H cfg cs).polls pm.pollId = none ∧
      Tracked H m pm.pollId j s' := by
  have hi := inv_reachable H hv cs
  revert hi hx hst
  generalize stateAfter H cfg cs = s
  generalize history H cfg cs = log
  intro hx h hi
  simp only [exec, hm] at hx
  have hpm : m ∈ pending H s ms := mem_pending.mpr ⟨hmem, h⟩
  obtain ⟨_, _, ans, sts, _, _, _, _, ⟨h1, _, _⟩ | ⟨_, ws, snap, confs, hws, hsn, hcf, hev, rfl⟩⟩ :=
    verifyMessages_ok hx
  · rw [h1] at hpm; simp at hpm
  · obtain ⟨pc, g1, g2, g3, g4, g5⟩ := saveMessages_mem (H := H) (id := s.lastPollId + 1) (i := 0)
      (kv := s.pollMessages) hpm
    have hc : pc.content = m :=
      hinj _ (mem_pending.mp (List.mem_of_getElem? g4)).1 g5
    obtain ⟨cf, e1, e2⟩ := mapE_getElem? hcf g4
    rw [hc] at e1
    refine ⟨ws, confs, _, cf, pc.index, _, hws, hev, e1, by simpa using e2, KV.set_self _ _ _, ?_,
      rfl, ?_, ?_, rfl, ?_, ?_, ?_, ?_⟩
    · refine ⟨ws, snap, hws, by rw [← hi.config]; exact hsn, voters_new _ _ _ _, rfl, ?_, ?_⟩
      · simp [Poll.new, hi.config]
      · simp [startedMeta, hev, hi.config, metaOf]
    · simp [Poll.new, mapE_length hcf]
    · simp [metaOf, hi.config]
    · intro w hw
      rw [voters_new, (Snapshot.new_ok hsn).2.2.2.2]
      have hmemk : ∀ (l : List (Addr × Nat)) (acc : OMap Addr Nat) (a : Addr),
          ((∃ n, (a, n) ∈ l) ∨ ∃ n, acc.get? a = some n) →
          ∃ n, (l.foldl (fun m e => OMap.set m e.1 e.2) acc).get? a = some n := by
        intro l
        induction l with
        | nil => intro acc a h; simpa using h
        | cons z t ih =>
          intro acc a h
          rw [List.foldl_cons]
          apply ih
          by_cases hz : a = z.1
          · right; exact ⟨z.2, by rw [get?_set, if_pos hz]⟩
          · rcases h with ⟨n, h⟩ | ⟨n, h⟩
            · rcases List.mem_cons.mp h with h | h
              · exact absurd (by rw [← h]) hz
              · exact Or.inl ⟨n, h⟩
            · exact Or.inr ⟨n, by rw [get?_set, if_neg hz]; exact h⟩
      obtain ⟨n, hn⟩ := hmemk (ws.map (fun w => (w.address, 1))) [] w.address
        (Or.inl ⟨1, List.mem_map.mpr ⟨w, hw, rfl⟩⟩)
      exact ⟨n, mem_of_get? hn⟩
    · intro a; exact Poll.new_ballot _ _ _ _ a
    · cases hn : s.polls (s.lastPollId + 1) with
      | none => simp only [metaOf]; exact hn
      | some sp => have := (hi.bound _ _ hn).2; omega
    · exact ⟨pc, _, g1, hc, KV.set_self _ _ _, Or.inl ⟨g2, rfl⟩⟩

/-- C78: a message that was polled and got a quorum is verified.  Let a call put `m` into a new poll
(it was never polled, or its last poll had failed; the event `PollStarted` lists the confirmation
request of `m`).  If, in what follows, a quorum of the workers active at that call vote
`SucceededOnChain` for the entries that ask for `m`, then `m` is verified - whatever else is called by
anyone before, between and after the votes. -/
theorem C78_quorum_verifies (H : Hashes) (cfg : Config) (hv : cfg.Valid) (cs ds : List Call)
    {c : Call} {s' : State} {r : Resp} {ms : List Message} (hm : c.msg = .verifyMessages ms)
    (hx : exec H (stateAfter H cfg cs) c = .ok (s', r)) {m : Message} (hmem : m ∈ ms)
    (hst : msgStatus H (stateAfter H cfg cs) m = .ok .notVerified ∨
      msgStatus H (stateAfter H cfg cs) m = .ok .failedToVerify)
    (hinj : ∀ m' ∈ ms, m'.hash H.msg = m.hash H.msg → m' = m)
    {ws : List Worker} (hws : c.workers = some ws) {confs : List TxConfirmation} {pm : PollMeta}
    (hev : r.event = some (.messagesPollStarted confs pm)) {cf : TxConfirmation}
    (hcf : confirmationOf m = .ok cf) (hord : InBlockOrder ds)
    (hq : ∀ i, confs[i]? = some cf →
      QuorumOf cfg.threshold (history H cfg (cs ++ c :: ds)) ws pm.pollId i pm.expiresAt) :
    msgStatus H (stateAfter H cfg (cs ++ c :: ds)) m = .ok .verified := by
  obtain ⟨ws', confs', pm', cf', j, sp, e1, e2, e3, e4, e5, e6, e7, e8, _, _, _, _, _, e9⟩ :=
    opened_tracks H hv cs hm hx hmem hst hinj
  rw [hws] at e1
  rw [hev] at e2
  rw [hcf] at e3
  simp only [Option.some.injEq, Event.messagesPollStarted.injEq, Except.ok.injEq] at e1 e2 e3
  obtain ⟨rfl, rfl⟩ := e2
  subst e1 e3
  have hrun : stateAfter H cfg (cs ++ c :: ds) = runCalls (exec H) s' ds := by
    unfold stateAfter
    rw [runCalls_append, runCalls_cons]
    unfold stateAfter at hx
    rw [hx]; rfl
  have hi := inv_step hv (inv_reachable H hv cs) hx
  have htr := tracked_run hv ds hi hord (by
    intro sp1 h1 h2
    rw [e5] at h1
    simp only [Option.some.injEq] at h1
    subst h1
    rw [e7] at h2
    simp at h2) e9
  rw [← hrun] at htr
  obtain ⟨pc, sp2, t1, t2, t3, t4⟩ := htr
  -- the poll still has the data it was opened with
  have hsame : ∃ sp2, (stateAfter H cfg (cs ++ c :: ds)).polls pm.pollId = some sp2 ∧
      OpenedBy cfg c r pm.pollId sp2 ∧ sp2.poll.pollSize = confs.length := by
    have hsplit : cs ++ c :: ds = (cs ++ [c]) ++ ds := by simp
    rw [hsplit]
    refine run_persist hv (P := fun s => ∃ sp2, s.polls pm.pollId = some sp2 ∧
      OpenedBy cfg c r pm.pollId sp2 ∧ sp2.poll.pollSize = confs.length) ?_ (cs ++ [c]) ds ?_
    · rintro log s s1 c1 r1 hi1 hx1 ⟨sp2, h1, h2, h3⟩
      obtain ⟨sp3, g1, _, g3, g4, g5, g6, _⟩ := poll_persists (exec_pollStep hx1) hi1 h1
      exact ⟨sp3, g1, h2.persist g3 g4 g5, by rw [g6]; exact h3⟩
    · refine ⟨sp, ?_, e6, e8⟩
      unfold stateAfter
      rw [runCalls_append, runCalls_cons]
      unfold stateAfter at hx
      rw [hx]; exact e5
  obtain ⟨sp3, u1, u2, u3⟩ := hsame
  rw [t3] at u1
  simp only [Option.some.injEq] at u1
  subst u1
  have hj : j < confs.length := by
    obtain ⟨h, _⟩ := List.getElem?_eq_some_iff.mp e4; exact h
  have hcons := consensus_of_quorumOf hv (cs ++ c :: ds) t3 u2 hws (hq j e4) (by omega)
  rcases t4 with ⟨t4, t5⟩ | ⟨_, t5⟩
  · unfold msgStatus verificationStatus
    simp only [t1, t2, t4, t3, t5, hcons, ne_eq, not_true_eq_false, if_false, if_true]
  · exact absurd hcons t5

/-- the poll opened by a call is still there later, with the same data -/
theorem opened_persists (H : Hashes) {cfg : Config} (hv : cfg.Valid) (cs ds : List Call) {c : Call}
    {s' : State} {r : Resp} (hx : exec H (stateAfter H cfg cs) c = .ok (s', r)) {id : Nat}
    {sp : StoredPoll} (hsp : s'.polls id = some sp) :
    ∃ sp2, (stateAfter H cfg (cs ++ c :: ds)).polls id = some sp2 ∧
      sp2.poll.voters = sp.poll.voters ∧ sp2.poll.quorum = sp.poll.quorum ∧
      sp2.poll.expiresAt = sp.poll.expiresAt ∧ sp2.poll.pollSize = sp.poll.pollSize := by
  have hsplit : cs ++ c :: ds = (cs ++ [c]) ++ ds := by simp
  rw [hsplit]
  refine run_persist hv (P := fun s => ∃ sp2, s.polls id = some sp2 ∧
      sp2.poll.voters = sp.poll.voters ∧ sp2.poll.quorum = sp.poll.quorum ∧
      sp2.poll.expiresAt = sp.poll.expiresAt ∧ sp2.poll.pollSize = sp.poll.pollSize) ?_ (cs ++ [c]) ds ?_
  · rintro log s s1 c1 r1 hi1 hx1 ⟨sp2, h1, h2, h3, h4, h5⟩
    obtain ⟨sp3, g1, _, g3, g4, g5, g6, _⟩ := poll_persists (exec_pollStep hx1) hi1 h1
    exact ⟨sp3, g1, by rw [g3]; exact h2, by rw [g4]; exact h3, by rw [g5]; exact h4,
      by rw [g6]; exact h5⟩
  · refine ⟨sp, ?_, rfl, rfl, rfl, rfl⟩
    unfold stateAfter
    rw [runCalls_append, runCalls_cons]
    unfold stateAfter at hx
    rw [hx]; exact hsp

theorem ballot_persists (H : Hashes) {cfg : Config} (hv : cfg.Valid) (cs ds : List Call) {id : Nat}
    {a : Addr} {vs : List Vote} (h : ∃ sp, (stateAfter H cfg cs).polls id = some sp ∧
      sp.poll.ballot a = some vs) :
    ∃ sp, (stateAfter H cfg (cs ++ ds)).polls id = some sp ∧ sp.poll.ballot a = some vs := by
  refine run_persist hv (P := fun s => ∃ sp, s.polls id = some sp ∧ sp.poll.ballot a = some vs)
    ?_ cs ds h
  rintro log s s1 c1 r1 hi1 hx1 ⟨sp2, h1, h2⟩
  obtain ⟨sp3, g1, _, _, _, _, _, _, g8, _⟩ := poll_persists (exec_pollStep hx1) hi1 h1
  refine ⟨sp3, g1, ?_⟩
  rcases g8 with e' | ⟨o, e'⟩
  · rw [e']; exact h2
  · rcases Poll.exec_ballot e' a with h | ⟨h, _⟩
    · rw [h]; exact h2
    · rw [h] at h2; simp at h2

/-- a participant that sends a ballot of the right size in time has a ballot recorded afterwards -/
theorem sent_recorded (H : Hashes) {cfg : Config} (hv : cfg.Valid) (cs : List Call) {d : Call}
    {id : Nat} {vs : List Vote} (hm : d.msg = .vote id vs) {sp : StoredPoll}
    (hsp : (stateAfter H cfg cs).polls id = some sp) (hvot : ∃ n, (d.sender, n) ∈ sp.poll.voters)
    (hlen : vs.length = sp.poll.pollSize) (hh : d.height < sp.poll.expiresAt) :
    ∃ sp2 vs2, (stateAfter H cfg (cs ++ [d])).polls id = some sp2 ∧
      sp2.poll.ballot d.sender = some vs2 := by
  cases hb : sp.poll.ballot d.sender with
  | some vs2 =>
    obtain ⟨sp2, h1, h2⟩ := ballot_persists H hv cs [d] ⟨sp, hsp, hb⟩
    exact ⟨sp2, vs2, h1, h2⟩
  | none =>
    have hr := ((inv_reachable H hv cs).polls id sp hsp).reach
    obtain ⟨p', hp'⟩ := (C03_cast_iff hr d.height d.sender vs).mpr ⟨hvot, hh, hlen, hb⟩
    have hx : exec H (stateAfter H cfg cs) d =
        .ok ({ stateAfter H cfg cs with
          polls := (stateAfter H cfg cs).polls.set id { sp with poll := p' } },
          { event := some (.voted id d.sender) }) := by
      unfold exec
      rw [hm]
      simp only [vote, hsp, hp']
    refine ⟨{ sp with poll := p' }, vs, ?_, ?_⟩
    · have : stateAfter H cfg (cs ++ [d]) = { stateAfter H cfg cs with
          polls := (stateAfter H cfg cs).polls.set id { sp with poll := p' } } := by
        unfold stateAfter at hx ⊢
        rw [runCalls_append, runCalls_cons, hx]; rfl
      rw [this]
      exact KV.set_self _ _ _
    · have := Poll.castVote_ballot hp' d.sender
      simpa using this

/-- C78: the same in terms of the transactions that workers send.  If every worker of a quorum sends a
ballot of the right length for the poll before it expires, and every such ballot they send says
`SucceededOnChain` for the entries that ask for `m`, then `m` is verified. -/
theorem C78_votes_verify (H : Hashes) (cfg : Config) (hv : cfg.Valid) (cs ds : List Call)
    {c : Call} {s' : State} {r : Resp} {ms : List Message} (hm : c.msg = .verifyMessages ms)
    (hx : exec H (stateAfter H cfg cs) c = .ok (s', r)) {m : Message} (hmem : m ∈ ms)
    (hst : msgStatus H (stateAfter H cfg cs) m = .ok .notVerified ∨
      msgStatus H (stateAfter H cfg cs) m = .ok .failedToVerify)
    (hinj : ∀ m' ∈ ms, m'.hash H.msg = m.hash H.msg → m' = m)
    {ws : List Worker} (hws : c.workers = some ws) {confs : List TxConfirmation} {pm : PollMeta}
    (hev : r.event = some (.messagesPollStarted confs pm)) {cf : TxConfirmation}
    (hcf : confirmationOf m = .ok cf) (hord : InBlockOrder ds)
    (Q : List Addr) (hnd : Q.Nodup) (hQ : ∀ a ∈ Q, ∃ w ∈ ws, w.address = a)
    (hquorum : ws.length * cfg.threshold.num ≤ Q.length * cfg.threshold.den)
    (hsend : ∀ a ∈ Q, ∃ d ∈ ds, ∃ vs, d.sender = a ∧ d.msg = .vote pm.pollId vs ∧
      vs.length = confs.length ∧ d.height < pm.expiresAt)
    (honest : ∀ d ∈ ds, d.sender ∈ Q → ∀ vs, d.msg = .vote pm.pollId vs → vs.length = confs.length →
      ∀ i : Nat, confs[i]? = some cf → vs[i]? = some .succeededOnChain) :
    msgStatus H (stateAfter H cfg (cs ++ c :: ds)) m = .ok .verified := by
  refine C78_quorum_verifies H cfg hv cs ds hm hx hmem hst hinj hws hev hcf hord ?_
  obtain ⟨ws', confs', pm', cf', j, sp, e1, e2, e3, e4, e5, e6, e7, e8, e10, e11, e12, e13, e14, e9⟩ :=
    opened_tracks H hv cs hm hx hmem hst hinj
  rw [hws] at e1
  rw [hev] at e2
  rw [hcf] at e3
  simp only [Option.some.injEq, Event.messagesPollStarted.injEq, Except.ok.injEq] at e1 e2 e3
  obtain ⟨rfl, rfl⟩ := e2
  subst e1 e3
  intro i hi
  refine ⟨Q, hnd, ?_, hquorum⟩
  intro a ha
  refine ⟨hQ a ha, ?_⟩
  obtain ⟨d, hd, vs, d1, d2, d3, d4⟩ := hsend a ha
  obtain ⟨ds1, ds2, rfl⟩ := List.append_of_mem hd
  -- a ballot of `a` is recorded at the end
  have hrec : ∃ sp2 vs2, (stateAfter H cfg (cs ++ c :: (ds1 ++ d :: ds2))).polls pm.pollId = some sp2 ∧
      sp2.poll.ballot a = some vs2 := by
    obtain ⟨sp1, f1, f2, f3, f4, f5⟩ := opened_persists H hv cs ds1 hx e5
    have hsplit : cs ++ c :: (ds1 ++ d :: ds2) = (cs ++ c :: ds1) ++ [d] ++ ds2 := by simp
    obtain ⟨w, hw1, hw2⟩ := hQ a ha
    obtain ⟨sp2, vs2, g1, g2⟩ := sent_recorded H hv (cs ++ c :: ds1) d2 f1
      (by rw [f2, d1, ← hw2]; exact e12 w hw1) (by rw [f5, e8]; exact d3)
      (by rw [f4, e11]; exact d4)
    rw [d1] at g2
    obtain ⟨sp3, g3, g4⟩ := ballot_persists H hv (cs ++ c :: ds1 ++ [d]) ds2 ⟨sp2, g1, g2⟩
    exact ⟨sp3, vs2, by rw [hsplit]; exact g3, g4⟩
  obtain ⟨sp2, vs2, g1, g2⟩ := hrec
  obtain ⟨sp2', k1, k2, k3, k4, k5⟩ := opened_persists H hv cs (ds1 ++ d :: ds2) hx e5
  rw [g1] at k1
  simp only [Option.some.injEq] at k1
  subst k1
  have hpi := (inv_reachable H hv (cs ++ c :: (ds1 ++ d :: ds2))).polls _ _ g1
  obtain ⟨c', r', l1, l2, l3, l4⟩ := hpi.ballots a vs2 g2
  have hlen : vs2.length = confs.length := by
    rw [hpi.reach.wf.ballots a vs2 g2, k5, e8]
  -- the ballot was cast after the poll was opened
  have hin : c' ∈ ds1 ++ d :: ds2 := by
    rw [history, outs_append, outs_cons_ok _ hx] at l1
    rcases List.mem_append.mp l1 with l1 | l1
    · exfalso
      obtain ⟨sp4, h4, _⟩ := vote_recorded H hv cs _ l1 _ _ l3
      rw [e14] at h4
      simp at h4
    · rcases List.mem_cons.mp l1 with l1 | l1
      · simp only [Prod.mk.injEq] at l1
        rw [l1.1, hm] at l3
        simp at l3
      · obtain ⟨cs1, cs2, _, h, _⟩ := outs_mem _ l1
        rw [h]; simp
  exact ⟨c', r', vs2, l1, l2, l3, honest c' hin (by rw [l2]; exact ha) vs2 l3 hlen i hi, by omega⟩

/-- the calls after the first one of `exCalls`, with a second request for the same messages in between -/
def exAfter : List Call :=
  [⟨101, 1, none, .vote 1 [.succeededOnChain, .notFound]⟩,
   ⟨101, 60, some [], .verifyMessages [exMsg2, exMsg]⟩,
   ⟨102, 2, none, .vote 1 [.succeededOnChain, .succeededOnChain]⟩,
   ⟨110, 52, none, .endPoll 1⟩,
   ⟨111, 60, some exWorkers, .verifyMessages [exMsg2, exMsg]⟩]

example : ∃ s' r confs pm cf,
    exec exH (stateAfter exH exCfg []) ⟨100, 50, some exWorkers, .verifyMessages [exMsg, exMsg2]⟩ =
      .ok (s', r) ∧
    msgStatus exH (stateAfter exH exCfg []) exMsg = .ok .notVerified ∧
    (∀ m' ∈ [exMsg, exMsg2], m'.hash exH.msg = exMsg.hash exH.msg → m' = exMsg) ∧
    r.event = some (.messagesPollStarted confs pm) ∧ confirmationOf exMsg = .ok cf ∧
    InBlockOrder exAfter ∧ confs.length = 2 ∧ confs[0]? = some cf ∧ confs[1]? ≠ some cf ∧
    pm.pollId = 1 ∧ pm.expiresAt = 110 ∧
    exWorkers.length * exCfg.threshold.num ≤ [1, 2].length * exCfg.threshold.den :=
  ⟨_, _, _, _, _, rfl, by decide, by decide, rfl, rfl, by unfold InBlockOrder; decide, by decide,
    by decide, by decide, by decide, by decide, by decide⟩

example : msgStatus exH (stateAfter exH exCfg
    (⟨100, 50, some exWorkers, .verifyMessages [exMsg, exMsg2]⟩ :: exAfter)) exMsg = .ok .verified := by
  decide

/-- votes that arrive out of block order do not count: without `InBlockOrder`, C78 would be false -/
example : msgStatus exH (stateAfter exH exCfg
    [⟨100, 50, some exWorkers, .verifyMessages [exMsg]⟩,
     ⟨101, 1, none, .vote 1 [.succeededOnChain]⟩,
     ⟨110, 52, none, .endPoll 1⟩,
     ⟨111, 60, some exWorkers, .verifyMessages [exMsg]⟩,
     ⟨109, 2, none, .vote 1 [.succeededOnChain]⟩]) exMsg = .ok .inProgress := by
  decide

/-! ### C79: worker sets -/

/-- a request for another poll about a worker set with this digest -/
def asksAgain (H : Hashes) (o : Operators) (c : Call) : Prop :=
  ∃ mid o', c.msg = .verifyWorkerSet mid o' ∧ H.ops o' = H.ops o

theorem set_kept {H : Hashes} {s s' : State} {c : Call} {r : Resp} (hx : exec H s c = .ok (s', r))
    {o : Operators} (hn : ¬ asksAgain H o c) :
    s'.pollWorkerSets (H.ops o) = s.pollWorkerSets (H.ops o) := by
  cases hm : c.msg with
  | vote id vs =>
    simp only [exec, hm] at hx
    obtain ⟨_, _, _, _, rfl, _⟩ := vote_ok hx; rfl
  | endPoll id =>
    simp only [exec, hm] at hx
    obtain ⟨_, _, _, _, rfl, _⟩ := endPoll_ok hx; rfl
  | verifyMessages ms =>
    simp only [exec, hm] at hx
    obtain ⟨_, _, ans, sts, _, _, _, _, ⟨_, rfl, _⟩ | ⟨_, ws, snap, confs, _, hsn, _, _, rfl⟩⟩ :=
      verifyMessages_ok hx <;> rfl
  | verifyWorkerSet mid o' =>
    simp only [exec, hm] at hx
    obtain ⟨_, _, _, _, _, _, _, _, _, rfl⟩ := verifyWorkerSet_ok hx
    apply KV.set_ne
    intro he
    exact hn ⟨mid, o', hm, he.symm⟩

/-- C79 (partial): a quorum of votes verifies a worker set, provided that nobody requests another poll
for it before they are in.  What is missing - that the votes count whatever is called in between - is
false: `C79_counterexample`, `C79_stalled`. -/
theorem C79_quorum_verifies_partial (H : Hashes) (cfg : Config) (hv : cfg.Valid)
    (cs ds es : List Call) {c : Call} {s' : State} {r : Resp} {mid : Str} {o : Operators}
    (hm : c.msg = .verifyWorkerSet mid o) (hx : exec H (stateAfter H cfg cs) c = .ok (s', r))
    {ws : List Worker} (hws : c.workers = some ws) {tx : Str} {n : Nat} {pm : PollMeta}
    (hev : r.event = some (.workerSetPollStarted tx n o pm))
    (hq : QuorumOf cfg.threshold (history H cfg (cs ++ c :: ds)) ws pm.pollId 0 pm.expiresAt)
    (hno : ∀ d ∈ ds, ¬ asksAgain H o d) :
    opsStatus H (stateAfter H cfg (cs ++ c :: ds ++ es)) o = .ok .verified := by
  refine C10_worker_set_verified_forever H cfg hv _ es o ?_
  have hi := inv_reachable H hv cs
  have hx' := hx
  simp only [exec, hm] at hx
  obtain ⟨_, ws', snap, tx', n', h1, h2, h3, h4, h5⟩ := verifyWorkerSet_ok hx
  rw [h4] at hev
  simp only [Option.some.injEq, Event.workerSetPollStarted.injEq] at hev
  obtain ⟨_, _, _, rfl⟩ := hev
  have e5 : s'.polls ((stateAfter H cfg cs).lastPollId + 1) = some
      ⟨.workerSet, Poll.new ((stateAfter H cfg cs).lastPollId + 1) snap
        (c.height + (stateAfter H cfg cs).config.blockExpiry) 1⟩ := by
    rw [h5]; exact KV.set_self _ _ _
  have hop : OpenedBy cfg c r ((stateAfter H cfg cs).lastPollId + 1)
      ⟨.workerSet, Poll.new ((stateAfter H cfg cs).lastPollId + 1) snap
        (c.height + (stateAfter H cfg cs).config.blockExpiry) 1⟩ := by
    refine ⟨ws', snap, h1, by rw [← hi.config]; exact h2, voters_new _ _ _ _, rfl, ?_, ?_⟩
    · simp [Poll.new, hi.config]
    · simp [startedMeta, h4, hi.config, metaOf]
  obtain ⟨sp2, g1, g2, g3, g4, g5⟩ := opened_persists H hv cs ds hx' e5
  have hop2 := hop.persist g2 g3 g4
  have hcons := consensus_of_quorumOf hv (cs ++ c :: ds) g1 hop2 hws hq (by rw [g5]; simp [Poll.new])
  have hset : (stateAfter H cfg (cs ++ c :: ds)).pollWorkerSets (H.ops o) =
      some ⟨o, (stateAfter H cfg cs).lastPollId + 1, 0⟩ := by
    have hrun : stateAfter H cfg (cs ++ c :: ds) = runCalls (exec H) s' ds := by
      unfold stateAfter
      rw [runCalls_append, runCalls_cons]
      unfold stateAfter at hx'
      rw [hx']; rfl
    rw [hrun]
    have hs' : s'.pollWorkerSets (H.ops o) = some ⟨o, (stateAfter H cfg cs).lastPollId + 1, 0⟩ := by
      rw [h5]; exact KV.set_self _ _ _
    revert hs' hno
    clear hq hrun g1 g2 g3 g4 g5 hop2 hcons e5 h5 hx hx'
    generalize (stateAfter H cfg cs).lastPollId = k
    induction ds generalizing s' with
    | nil => intro _ h; exact h
    | cons d ds ih =>
      intro hno h
      rw [runCalls_cons]
      cases hd : exec H s' d with
      | error e => exact ih (fun x hx => hno x (by simp [hx])) h
      | ok y =>
        refine ih (s' := y.1) (fun x hx => hno x (by simp [hx])) ?_
        rw [set_kept hd (hno d (by simp))]; exact h
  unfold opsStatus verificationStatus
  rw [hset]
  simp only [ne_eq, not_true_eq_false, if_false]
  rw [g1]
  simp only [hcons, if_true]

example : ∃ s' r pm, exec exH (stateAfter exH exCfg (exCalls.take 4))
      ⟨103, 51, some exWorkers, .verifyWorkerSet "0xee:0".toList exOps⟩ = .ok (s', r) ∧
    r.event = some (.workerSetPollStarted "0xee".toList 0 exOps pm) ∧ pm.pollId = 2 :=
  ⟨_, _, _, rfl, rfl, rfl⟩

theorem weight_zero {p : Poll} (h : ∀ a, p.ballot a = none) (hp : p.WF) (i : Nat) (v : Vote) :
    p.votedWeight i v = 0 := by
  unfold Poll.votedWeight
  have hz : ∀ e ∈ p.participation, votesFor i v e.2 = false := by
    rintro ⟨a, x⟩ he
    have hg := get?_of_mem hp.sorted he
    have := h a
    unfold Poll.ballot at this
    rw [hg] at this
    simp only [Option.bind_some] at this
    simp [votesFor, this]
  revert hz
  generalize p.participation = l
  intro hz
  induction l with
  | nil => rfl
  | cons e t ih =>
    rw [sumBy_cons, ih (fun x hx => hz x (by simp [hx])), hz e (by simp)]
    rfl

/-- Nobody has voted in the poll that counts for `o`. -/
structure Stalled (H : Hashes) (o : Operators) (log : List (Call × Resp)) (s : State) : Prop where
  unvoted : ∀ pc, s.pollWorkerSets (H.ops o) = some pc → pc.content = o →
    (∃ sp, s.polls pc.pollId = some sp ∧ ∀ a, sp.poll.ballot a = none) ∧
    ∃ e ∈ log, ∃ tx n pm, e.2.event = some (.workerSetPollStarted tx n o pm) ∧ pm.pollId = pc.pollId
  latest : ∀ e ∈ log, ∀ tx n pm, e.2.event = some (.workerSetPollStarted tx n o pm) →
    ∃ pc, s.pollWorkerSets (H.ops o) = some pc ∧ pc.content = o ∧ pm.pollId ≤ pc.pollId

theorem stalled_step {H : Hashes} {cfg : Config} {log : List (Call × Resp)} {s s' : State} {c : Call}
    {r : Resp} (hi : Inv H cfg log s) (hx : exec H s c = .ok (s', r)) {o : Operators}
    (hlate : ∀ id vs, c.msg = .vote id vs → ∀ e ∈ log, ∀ tx n pm,
      e.2.event = some (.workerSetPollStarted tx n o pm) → pm.pollId = id →
      ∃ e' ∈ log, ∃ tx' n' pm', e'.2.event = some (.workerSetPollStarted tx' n' o pm') ∧
        id < pm'.pollId)
    (h : Stalled H o log s) : Stalled H o (log ++ [(c, r)]) s' := by
  -- if the recorded poll and its ballots are as before, and no poll for `o` is opened
  have hkeep : s'.pollWorkerSets (H.ops o) = s.pollWorkerSets (H.ops o) →
      (∀ pc sp, s.pollWorkerSets (H.ops o) = some pc → pc.content = o →
        s.polls pc.pollId = some sp → (∀ a, sp.poll.ballot a = none) →
        ∃ sp', s'.polls pc.pollId = some sp' ∧ ∀ a, sp'.poll.ballot a = none) →
      (∀ tx n pm, r.event ≠ some (.workerSetPollStarted tx n o pm)) →
      Stalled H o (log ++ [(c, r)]) s' := by
    intro h1 h2 h3
    refine ⟨?_, ?_⟩
    · intro pc hpc hc
      rw [h1] at hpc
      obtain ⟨⟨sp, g1, g2⟩, e, he, g3⟩ := h.unvoted pc hpc hc
      exact ⟨h2 pc sp hpc hc g1 g2, e, by simp [he], g3⟩
    · intro e he tx n pm hev
      rcases List.mem_append.mp he with he | he
      · rw [h1]; exact h.latest e he tx n pm hev
      · simp only [List.mem_singleton] at he
        subst he
        exact absurd hev (h3 tx n pm)
  have hold : ∀ {id : Nat} {sp sp0 : StoredPoll}, s.polls id = some sp →
      (s.polls.set (s.lastPollId + 1) sp0) id = some sp := by
    intro id sp sp0 h
    rw [KV.set_ne, h]
    have := (hi.bound id sp h).2
    omega
  cases hm : c.msg with
  | vote id vs =>
    simp only [exec, hm] at hx
    obtain ⟨sp0, p, h1, h2, rfl, rfl⟩ := vote_ok hx
    refine hkeep rfl ?_ (by simp)
    intro pc sp hpc hc hsp hb
    have hne : pc.pollId ≠ id := by
      intro he
      obtain ⟨_, e, he1, tx, n, pm, he2, he3⟩ := h.unvoted pc hpc hc
      obtain ⟨e', f1, tx', n', pm', f2, f3⟩ := hlate id vs hm e he1 tx n pm he2 (by rw [he3, he])
      obtain ⟨pc', k1, _, k3⟩ := h.latest e' f1 tx' n' pm' f2
      rw [hpc] at k1
      simp only [Option.some.injEq] at k1
      subst k1
      omega
    exact ⟨sp, by simp only; rw [KV.set_ne _ _ hne]; exact hsp, hb⟩
  | endPoll id =>
    simp only [exec, hm] at hx
    obtain ⟨sp0, p, h1, h2, rfl, rfl⟩ := endPoll_ok hx
    refine hkeep rfl ?_ (by simp)
    intro pc sp hpc hc hsp hb
    simp only [KV.set_apply]
    by_cases hid : pc.pollId = id
    · refine ⟨_, if_pos hid, ?_⟩
      rw [hid, h1] at hsp
      simp only [Option.some.injEq] at hsp
      subst hsp
      obtain ⟨_, _, rfl⟩ := Poll.finish_ok h2
      exact hb
    · exact ⟨sp, by rw [if_neg hid]; exact hsp, hb⟩
  | verifyMessages ms =>
    simp only [exec, hm] at hx
    obtain ⟨_, _, ans, sts, _, _, _, _, ⟨_, rfl, hev⟩ | ⟨_, ws, snap, confs, _, hsn, _, hev, rfl⟩⟩ :=
      verifyMessages_ok hx
    · exact hkeep rfl (fun pc sp _ _ h1 h2 => ⟨sp, h1, h2⟩) (by simp [hev])
    · exact hkeep rfl (fun pc sp _ _ h1 h2 => ⟨sp, hold h1, h2⟩) (by simp [hev])
  | verifyWorkerSet mid o' =>
    simp only [exec, hm] at hx
    obtain ⟨hnv, ws, snap, tx, n, _, hsn, _, rfl, rfl⟩ := verifyWorkerSet_ok hx
    by_cases ho : H.ops o' = H.ops o
    · have hsame : ∀ pc, s.pollWorkerSets (H.ops o) = some pc → pc.content = o' := by
        intro pc hpc
        by_contra hne
        unfold isWorkerSetVerified opsStatus at hnv
        rw [ho, hpc] at hnv
        simp [verificationStatus, hne] at hnv
      refine ⟨?_, ?_⟩
      · intro pc hpc hc
        simp only [ho, KV.set_self, Option.some.injEq] at hpc
        subst hpc
        simp only at hc
        subst hc
        refine ⟨⟨_, KV.set_self _ _ _, fun a => Poll.new_ballot _ _ _ _ a⟩, _, by simp; right; rfl,
          _, _, _, rfl, rfl⟩
      · intro e he tx' n' pm hev
        rcases List.mem_append.mp he with he | he
        · obtain ⟨pc, k1, k2, k3⟩ := h.latest e he tx' n' pm hev
          have : o' = o := by rw [← hsame pc k1, k2]
          subst this
          refine ⟨_, KV.set_self _ _ _, rfl, ?_⟩
          obtain ⟨⟨sp, hsp, _⟩, _⟩ := h.unvoted pc k1 k2
          have := (hi.bound _ _ hsp).2
          simp only
          omega
        · simp only [List.mem_singleton] at he
          subst he
          simp only [Option.some.injEq, Event.workerSetPollStarted.injEq] at hev
          obtain ⟨_, _, rfl, rfl⟩ := hev
          exact ⟨_, KV.set_self _ _ _, rfl, Nat.le_refl _⟩
    · refine hkeep (KV.set_ne _ _ (Ne.symm ho)) (fun pc sp _ _ h1 h2 => ⟨sp, hold h1, h2⟩) ?_
      intro tx' n' pm hev
      simp only [Option.some.injEq, Event.workerSetPollStarted.injEq] at hev
      exact ho (by rw [hev.2.2.1])

/-- C79: requests can be repeated by anyone while the votes are on their way, and then the votes are for
nothing.  If every vote in a poll about `o` comes after a later request for `o` has opened another one,
`o` is never verified, however many workers vote and however often. -/
theorem C79_stalled (H : Hashes) (cfg : Config) (hv : cfg.Valid) (cs : List Call) (o : Operators)
    (hlate : ∀ cs₁ c cs₂ id vs, cs = cs₁ ++ c :: cs₂ → c.msg = .vote id vs →
      ∀ e ∈ history H cfg cs₁, ∀ tx n pm, e.2.event = some (.workerSetPollStarted tx n o pm) →
        pm.pollId = id →
        ∃ e' ∈ history H cfg cs₁, ∃ tx' n' pm', e'.2.event = some (.workerSetPollStarted tx' n' o pm') ∧
          id < pm'.pollId) :
    opsStatus H (stateAfter H cfg cs) o ≠ .ok .verified := by
  have hst : Stalled H o (history H cfg cs) (stateAfter H cfg cs) := by
    induction cs using List.reverseRecOn with
    | nil => exact ⟨by intro pc h; simp [stateAfter, init] at h, by simp [history]⟩
    | append_singleton cs c ih =>
      have ih := ih (by
        intro cs₁ c' cs₂ id vs h
        exact hlate cs₁ c' (cs₂ ++ [c]) id vs (by rw [h]; simp))
      have hl := fun id vs => hlate cs c [] id vs rfl
      unfold history stateAfter at ih ⊢
      unfold history at hl
      rw [outs_append, runCalls_append, runCalls_cons]
      cases hx : exec H (runCalls (exec H) (init cfg) cs) c with
      | error e =>
        rw [outs_cons_error _ hx]
        simpa [commit] using ih
      | ok y =>
        obtain ⟨s', r⟩ := y
        rw [outs_cons_ok _ hx]
        exact stalled_step (inv_reachable H hv cs) hx hl ih
  intro hver
  obtain ⟨pc, sp, h1, h2, h3, h4⟩ := verificationStatus_verified hver
  obtain ⟨⟨sp', g1, g2⟩, _⟩ := hst.unvoted pc h1 h2
  rw [h3] at g1
  simp only [Option.some.injEq] at g1
  subst g1
  have hpi := (inv_reachable H hv cs).polls _ _ h3
  have hlt : pc.index < sp.poll.pollSize := by
    by_contra hc
    rw [(C06_no_consensus_iff hpi.reach pc.index).2 (by omega)] at h4
    simp at h4
  rw [C06_consensus_iff hpi.reach hlt, weight_zero g2 hpi.reach.wf] at h4
  have := hpi.reach.total_lt.1
  omega

/-- the ids of the polls about `o` in a log -/
def pollsAbout (o : Operators) (log : List (Call × Resp)) : List Nat :=
  log.filterMap (fun e => match e.2.event with
    | some (.workerSetPollStarted _ _ o' pm) => if o' = o then some pm.pollId else none
    | _ => none)

/-- the premise of `C79_stalled` for the vote at position `k`, in a form that can be evaluated -/
def lateAt (H : Hashes) (cfg : Config) (o : Operators) (cs : List Call) (k : Nat) : Bool :=
  match cs[k]? with
  | some ⟨_, _, _, .vote id _⟩ =>
    !(pollsAbout o (history H cfg (cs.take k))).contains id ||
      (pollsAbout o (history H cfg (cs.take k))).any (fun j => id < j)
  | _ => true

theorem mem_pollsAbout {o : Operators} {log : List (Call × Resp)} {id : Nat} :
    id ∈ pollsAbout o log ↔ ∃ e ∈ log, ∃ tx n pm,
      e.2.event = some (.workerSetPollStarted tx n o pm) ∧ pm.pollId = id := by
  unfold pollsAbout
  rw [List.mem_filterMap]
  constructor
  · rintro ⟨e, he, h⟩
    refine ⟨e, he, ?_⟩
    split at h
    · rename_i tx n o' pm hev
      split at h
      · rename_i ho
        subst ho
        exact ⟨tx, n, pm, hev, by simpa using h⟩
      · simp at h
    · simp at h
  · rintro ⟨e, he, tx, n, pm, hev, hid⟩
    exact ⟨e, he, by simp [hev, hid]⟩

theorem late_of_lateAt {H : Hashes} {cfg : Config} {o : Operators} {cs : List Call}
    (h : ∀ k < cs.length, lateAt H cfg o cs k = true) :
    ∀ cs₁ c cs₂ id vs, cs = cs₁ ++ c :: cs₂ → c.msg = .vote id vs →
      ∀ e ∈ history H cfg cs₁, ∀ tx n pm, e.2.event = some (.workerSetPollStarted tx n o pm) →
        pm.pollId = id →
        ∃ e' ∈ history H cfg cs₁, ∃ tx' n' pm', e'.2.event = some (.workerSetPollStarted tx' n' o pm') ∧
          id < pm'.pollId := by
  intro cs₁ c cs₂ id vs hcs hm e he tx n pm hev hid
  have hk := h cs₁.length (by rw [hcs]; simp)
  have hget : cs[cs₁.length]? = some c := by rw [hcs]; simp
  have htake : cs.take cs₁.length = cs₁ := by rw [hcs]; simp
  unfold lateAt at hk
  rw [hget, htake] at hk
  obtain ⟨ht, sd, wk, msg⟩ := c
  simp only at hm
  subst hm
  simp only [Bool.or_eq_true, Bool.not_eq_true', List.any_eq_true, decide_eq_true_eq] at hk
  have hin : id ∈ pollsAbout o (history H cfg cs₁) := mem_pollsAbout.mpr ⟨e, he, tx, n, pm, hev, hid⟩
  rcases hk with hk | ⟨j, hj, hlt⟩
  · rw [List.contains_iff_mem.mpr hin] at hk
    simp at hk
  · obtain ⟨e', he', tx', n', pm', hev', hid'⟩ := mem_pollsAbout.mp hj
    exact ⟨e', he', tx', n', pm', hev', by omega⟩

/-- every request is followed, in the same block, by another one of a bystander (`666`); all three workers
vote in both polls, in time -/
def exStall : List Call :=
  [⟨103, 51, some exWorkers, .verifyWorkerSet "0xee:0".toList exOps⟩,
   ⟨103, 666, some exWorkers, .verifyWorkerSet "0xee:0".toList exOps⟩,
   ⟨104, 1, none, .vote 1 [.succeededOnChain]⟩,
   ⟨104, 2, none, .vote 1 [.succeededOnChain]⟩,
   ⟨104, 3, none, .vote 1 [.succeededOnChain]⟩,
   ⟨104, 666, some exWorkers, .verifyWorkerSet "0xee:0".toList exOps⟩,
   ⟨105, 1, none, .vote 2 [.succeededOnChain]⟩,
   ⟨105, 2, none, .vote 2 [.succeededOnChain]⟩,
   ⟨105, 3, none, .vote 2 [.succeededOnChain]⟩]

example : opsStatus exH (stateAfter exH exCfg exStall) exOps ≠ .ok .verified :=
  C79_stalled exH exCfg exCfg_valid exStall exOps (late_of_lateAt (by decide))

/-- C79: the full statement - a quorum of votes verifies the worker set - is false: all workers voted in
time in the first poll, and in the second, and the set is not verified. -/
theorem C79_counterexample :
    QuorumOf exCfg.threshold (history exH exCfg exStall) exWorkers 1 0 113 ∧
    QuorumOf exCfg.threshold (history exH exCfg exStall) exWorkers 2 0 113 ∧
    opsStatus exH (stateAfter exH exCfg exStall) exOps = .ok .inProgress := by
  refine ⟨⟨[1, 2, 3], by decide, ?_, by decide⟩, ⟨[1, 2, 3], by decide, ?_, by decide⟩, by decide⟩
  · intro a ha
    simp only [List.mem_cons, List.not_mem_nil, or_false] at ha
    rcases ha with rfl | rfl | rfl
    · exact ⟨⟨_, List.mem_of_getElem? (i := 0) rfl, rfl⟩, _, _, _, List.mem_of_getElem? (i := 2) rfl,
        rfl, rfl, rfl, by decide⟩
    · exact ⟨⟨_, List.mem_of_getElem? (i := 1) rfl, rfl⟩, _, _, _, List.mem_of_getElem? (i := 3) rfl,
        rfl, rfl, rfl, by decide⟩
    · exact ⟨⟨_, List.mem_of_getElem? (i := 2) rfl, rfl⟩, _, _, _, List.mem_of_getElem? (i := 4) rfl,
        rfl, rfl, rfl, by decide⟩
  · intro a ha
    simp only [List.mem_cons, List.not_mem_nil, or_false] at ha
    rcases ha with rfl | rfl | rfl
    · exact ⟨⟨_, List.mem_of_getElem? (i := 0) rfl, rfl⟩, _, _, _, List.mem_of_getElem? (i := 6) rfl,
        rfl, rfl, rfl, by decide⟩
    · exact ⟨⟨_, List.mem_of_getElem? (i := 1) rfl, rfl⟩, _, _, _, List.mem_of_getElem? (i := 7) rfl,
        rfl, rfl, rfl, by decide⟩
    · exact ⟨⟨_, List.mem_of_getElem? (i := 2) rfl, rfl⟩, _, _, _, List.mem_of_getElem? (i := 8) rfl,
        rfl, rfl, rfl, by decide⟩

end Amp.VV
