import Verif.VV.Spec
import Verif.Std.Props

/-!
# Invariants of the voting verifier
-/

namespace Amp.VV

open Amp.Std Amp.Router Amp.Registry OMap

/-! ### what each successful call does -/

theorem participantOf_ok {w : Worker} {p : Addr × Nat} (h : participantOf w = .ok p) :
    p = (w.address, 1) := by
  unfold participantOf Worker.toParticipant at h
  split at h
  · simp at h
  · rename_i q hq
    split at hq
    · simp only [Option.some.injEq] at hq
      simp only [Except.ok.injEq] at h
      rw [← h, ← hq]
    · simp at hq

theorem participants_eq {ws : List Worker} {ps : List (Addr × Nat)}
    (h : mapE participantOf ws = .ok ps) : ps = ws.map (fun w => (w.address, 1)) := by
  induction ws generalizing ps with
  | nil => simp only [mapE, Except.ok.injEq] at h; subst h; rfl
  | cons w t ih =>
    obtain ⟨b, bs, h1, h2, rfl⟩ := mapE_cons_ok.mp h
    rw [participantOf_ok h1, ih h2]; rfl

theorem takeSnapshot_ok {cfg : Config} {w : Option (List Worker)} {snap : Snapshot}
    (h : takeSnapshot cfg w = .ok snap) :
    ∃ ws, w = some ws ∧
      Snapshot.new cfg.threshold (ws.map (fun w => (w.address, 1))) = .ok snap := by
  unfold takeSnapshot at h
  split at h
  · simp at h
  · rename_i ws
    refine ⟨ws, rfl, ?_⟩
    split at h
    · simp at h
    · rename_i ps hps
      split at h
      · simp at h
      · rename_i snap' hs
        simp only [Except.ok.injEq] at h
        subst h
        rw [← participants_eq hps]; exact hs

theorem createPoll_ok {s s1 : State} {h : Nat} {snap : Snapshot} {k : PollKind} {n id : Nat}
    (hc : createPoll s h snap k n = .ok (id, s1)) :
    id = s.lastPollId + 1 ∧ s1 = { s with
      lastPollId := s.lastPollId + 1
      polls := s.polls.set (s.lastPollId + 1)
        ⟨k, Poll.new (s.lastPollId + 1) snap (h + s.config.blockExpiry) n⟩ } := by
  unfold createPoll counterIncr at hc
  split at hc
  · simp at hc
  · rename_i x hx
    split at hx
    · simp only [Option.some.injEq] at hx
      subst hx
      split at hc
      · simp at hc
      · simp only [Except.ok.injEq, Prod.mk.injEq] at hc
        exact ⟨hc.1.symm, hc.2.symm⟩
    · simp at hx

/-- the messages of a batch that need a new poll, in order -/
def pending (H : Hashes) (s : State) (ms : List Message) : List Message :=
  ms.filter (fun m => match msgStatus H s m with
    | .ok st => needsPoll st
    | .error _ => false)

theorem pending_eq {H : Hashes} {s : State} {ms : List Message} {sts : List Status}
    (h : mapE (msgStatus H s) ms = .ok sts) :
    ((sts.zip ms).filter (fun p => needsPoll p.1)).map Prod.snd = pending H s ms := by
  induction ms generalizing sts with
  | nil => simp [pending]
  | cons m t ih =>
    obtain ⟨st, sts', h1, h2, rfl⟩ := mapE_cons_ok.mp h
    have := ih h2
    unfold pending at this ⊢
    simp only [List.zip_cons_cons, List.filter_cons, h1]
    by_cases hn : needsPoll st = true
    · simp [hn, this]
    · simp [hn, this]

theorem verifyMessages_ok {H : Hashes} {s s' : State} {c : Call} {ms : List Message} {r : Resp}
    (h : verifyMessages H s c ms = .ok (s', r)) :
    ms ≠ [] ∧ (∀ m ∈ ms, m.ccId.chain = s.config.sourceChain) ∧
    ∃ answers sts, isVerified H s ms = .ok answers ∧ mapE (msgStatus H s) ms = .ok sts ∧
    r.data = .statuses answers ∧ r.msgs = [] ∧
    ((pending H s ms = [] ∧ s' = s ∧ r.event = none) ∨
     (pending H s ms ≠ [] ∧ ∃ ws snap confs, c.workers = some ws ∧
      Snapshot.new s.config.threshold (ws.map (fun w => (w.address, 1))) = .ok snap ∧
      mapE confirmationOf (pending H s ms) = .ok confs ∧
      r.event = some (.messagesPollStarted confs (metaOf s.config (s.lastPollId + 1) c.height snap)) ∧
      s' = { s with
        lastPollId := s.lastPollId + 1
        polls := s.polls.set (s.lastPollId + 1)
          ⟨.messages, Poll.new (s.lastPollId + 1) snap (c.height + s.config.blockExpiry)
            (pending H s ms).length⟩
        pollMessages := saveMessages H (s.lastPollId + 1) 0 (pending H s ms) s.pollMessages })) := by
  unfold verifyMessages at h
  split at h
  · simp at h
  rename_i hne
  split at h
  · simp at h
  rename_i hany
  refine ⟨hne, ?_, ?_⟩
  · intro m hm
    by_contra hc
    apply hany
    rw [List.any_eq_true]
    exact ⟨m, hm, by simpa using hc⟩
  split at h
  · simp at h
  rename_i answers hans
  split at h
  · simp at h
  rename_i sts hsts
  rw [pending_eq hsts] at h
  dsimp only at h
  split at h
  · rename_i hp
    simp only [Except.ok.injEq, Prod.mk.injEq] at h
    obtain ⟨rfl, rfl⟩ := h
    exact ⟨answers, sts, hans, hsts, rfl, rfl, Or.inl ⟨hp, rfl, rfl⟩⟩
  rename_i hp
  split at h
  · simp at h
  rename_i snap hsnap
  obtain ⟨ws, hws, hsn⟩ := takeSnapshot_ok hsnap
  split at h
  · simp at h
  rename_i id s1 hcp
  obtain ⟨rfl, rfl⟩ := createPoll_ok hcp
  split at h
  · simp at h
  split at h
  · simp at h
  rename_i confs hconf
  simp only [Except.ok.injEq, Prod.mk.injEq] at h
  obtain ⟨rfl, rfl⟩ := h
  exact ⟨answers, sts, hans, hsts, rfl, rfl, Or.inr ⟨hp, ws, snap, confs, hws, hsn, hconf, rfl, rfl⟩⟩

theorem verifyWorkerSet_ok {H : Hashes} {s s' : State} {c : Call} {mid : Str} {o : Operators}
    {r : Resp} (h : verifyWorkerSet H s c mid o = .ok (s', r)) :
    isWorkerSetVerified H s o = .ok false ∧
    ∃ ws snap tx n, c.workers = some ws ∧
      Snapshot.new s.config.threshold (ws.map (fun w => (w.address, 1))) = .ok snap ∧
      parseMessageId mid = some (tx, n) ∧
      r = { event := some (.workerSetPollStarted tx n o
              (metaOf s.config (s.lastPollId + 1) c.height snap)) } ∧
      s' = { s with
        lastPollId := s.lastPollId + 1
        polls := s.polls.set (s.lastPollId + 1)
          ⟨.workerSet, Poll.new (s.lastPollId + 1) snap (c.height + s.config.blockExpiry) 1⟩
        pollWorkerSets := s.pollWorkerSets.set (H.ops o) ⟨o, s.lastPollId + 1, 0⟩ } := by
  unfold verifyWorkerSet at h
  split at h
  · simp at h
  · simp at h
  rename_i hv
  refine ⟨hv, ?_⟩
  split at h
  · simp at h
  rename_i snap hsnap
  obtain ⟨ws, hws, hsn⟩ := takeSnapshot_ok hsnap
  split at h
  · simp at h
  rename_i id s1 hcp
  obtain ⟨rfl, rfl⟩ := createPoll_ok hcp
  split at h
  · simp at h
  rename_i tx n hpm
  simp only [Except.ok.injEq, Prod.mk.injEq] at h
  obtain ⟨rfl, rfl⟩ := h
  exact ⟨ws, snap, tx, n, hws, hsn, hpm, rfl, rfl⟩

theorem vote_ok {s s' : State} {c : Call} {id : Nat} {vs : List Vote} {r : Resp}
    (h : vote s c id vs = .ok (s', r)) :
    ∃ sp p, s.polls id = some sp ∧ sp.poll.castVote c.height c.sender vs = .ok p ∧
      s' = { s with polls := s.polls.set id { sp with poll := p } } ∧
      r = { event := some (.voted id c.sender) } := by
  unfold vote at h
  split at h
  · simp at h
  rename_i sp hsp
  split at h
  · simp at h
  rename_i p hp
  simp only [Except.ok.injEq, Prod.mk.injEq] at h
  exact ⟨sp, p, hsp, hp, h.1.symm, h.2.symm⟩

theorem endPoll_ok {s s' : State} {c : Call} {id : Nat} {r : Resp}
    (h : endPoll s c id = .ok (s', r)) :
    ∃ sp p, s.polls id = some sp ∧ sp.poll.finish c.height = .ok p ∧
      s' = { s with polls := s.polls.set id { sp with poll := p } } ∧
      r = { data := .pollResult p.state
            event := some (.pollEnded p.state.pollId p.state.results)
            msgs := p.state.consensusParticipants.map
              (fun a => ⟨s.config.rewards, showNat id, a⟩) } := by
  unfold endPoll at h
  split at h
  · simp at h
  rename_i sp hsp
  split at h
  · simp at h
  rename_i p hp
  simp only [Except.ok.injEq, Prod.mk.injEq] at h
  exact ⟨sp, p, hsp, hp, h.1.symm, h.2.symm⟩

/-! ### one abstract step: either a poll is opened, or one existing poll is operated on -/

/-- the effect of a successful call on the polls -/
inductive PollStep (s s' : State) (c : Call) (r : Resp) : Prop
  | same (hp : s'.polls = s.polls) (hl : s'.lastPollId = s.lastPollId) (hs : startedMeta r = none)
      (hm : r.msgs = [])
  | opened (k : PollKind) (ws : List Worker) (snap : Snapshot) (n : Nat) (hw : c.workers = some ws)
      (hsn : Snapshot.new s.config.threshold (ws.map (fun w => (w.address, 1))) = .ok snap)
      (hp : s'.polls = s.polls.set (s.lastPollId + 1)
        ⟨k, Poll.new (s.lastPollId + 1) snap (c.height + s.config.blockExpiry) n⟩)
      (hl : s'.lastPollId = s.lastPollId + 1)
      (hs : startedMeta r = some (metaOf s.config (s.lastPollId + 1) c.height snap))
      (hm : r.msgs = [])
  | op (id : Nat) (sp : StoredPoll) (o : PollOp) (p : Poll) (hsp : s.polls id = some sp)
      (hx : sp.poll.exec o = .ok (p, ()))
      (hp : s'.polls = s.polls.set id { sp with poll := p }) (hl : s'.lastPollId = s.lastPollId)
      (hs : startedMeta r = none)
      (ho : (∃ vs, c.msg = .vote id vs ∧ o = .cast c.height c.sender vs ∧ r.msgs = []) ∨
        (c.msg = .endPoll id ∧ o = .finish c.height ∧
          r.msgs = p.state.consensusParticipants.map (fun a => ⟨s.config.rewards, showNat id, a⟩)))

theorem exec_config {H : Hashes} {s s' : State} {c : Call} {r : Resp}
    (h : exec H s c = .ok (s', r)) : s'.config = s.config := by
  unfold exec at h
  split at h
  · obtain ⟨_, _, _, _, _, _, _, _, ⟨_, rfl, _⟩ | ⟨_, _, _, _, _, _, _, _, rfl⟩⟩ := verifyMessages_ok h <;> rfl
  · obtain ⟨_, _, _, _, rfl, _⟩ := vote_ok h; rfl
  · obtain ⟨_, _, _, _, rfl, _⟩ := endPoll_ok h; rfl
  · obtain ⟨_, _, _, _, _, _, _, _, _, rfl⟩ := verifyWorkerSet_ok h; rfl

theorem exec_pollStep {H : Hashes} {s s' : State} {c : Call} {r : Resp}
    (h : exec H s c = .ok (s', r)) : PollStep s s' c r := by
  unfold exec at h
  split at h
  · obtain ⟨_, _, _, _, _, _, _, hm, ⟨_, rfl, he⟩ | ⟨_, ws, snap, confs, h1, h2, h3, h4, rfl⟩⟩ :=
      verifyMessages_ok h
    · exact .same rfl rfl (by simp [startedMeta, he]) hm
    · exact .opened .messages ws snap _ h1 h2 rfl rfl (by simp [startedMeta, h4]) hm
  · rename_i id vs hmsg
    obtain ⟨sp, p, h1, h2, rfl, rfl⟩ := vote_ok h
    exact .op id sp (.cast c.height c.sender vs) p h1 (by simp [Poll.exec, h2, Except.map])
      rfl rfl rfl (Or.inl ⟨vs, hmsg, rfl, rfl⟩)
  · rename_i id hmsg
    obtain ⟨sp, p, h1, h2, rfl, rfl⟩ := endPoll_ok h
    exact .op id sp (.finish c.height) p h1 (by simp [Poll.exec, h2, Except.map])
      rfl rfl rfl (Or.inr ⟨hmsg, rfl, rfl⟩)
  · obtain ⟨_, ws, snap, tx, n, h1, h2, h3, rfl, rfl⟩ := verifyWorkerSet_ok h
    exact .opened .workerSet ws snap 1 h1 h2 rfl rfl rfl rfl

/-! ### saving messages -/

theorem saveMessages_other {H : Hashes} {id i : Nat} {ms : List Message}
    {kv : KV Digest (PollContent Message)} {d : Digest} (h : ∀ m ∈ ms, m.hash H.msg ≠ d) :
    saveMessages H id i ms kv d = kv d := by
  induction ms generalizing i kv with
  | nil => rfl
  | cons m t ih =>
    unfold saveMessages
    rw [ih (fun x hx => h x (by simp [hx]))]
    exact KV.set_ne _ _ (Ne.symm (h m (by simp)))

theorem saveMessages_cases {H : Hashes} {id i : Nat} {ms : List Message}
    {kv : KV Digest (PollContent Message)} {d : Digest} {pc : PollContent Message}
    (h : saveMessages H id i ms kv d = some pc) :
    (kv d = some pc ∧ ∀ m ∈ ms, m.hash H.msg ≠ d) ∨
    (pc.pollId = id ∧ i ≤ pc.index ∧ ms[pc.index - i]? = some pc.content ∧
      pc.content.hash H.msg = d) := by
  induction ms generalizing i kv with
  | nil => exact Or.inl ⟨h, by simp⟩
  | cons m t ih =>
    unfold saveMessages at h
    rcases ih h with ⟨h1, h2⟩ | ⟨h1, h2, h3, h4⟩
    · rw [KV.set_apply] at h1
      split at h1
      · rename_i hd
        simp only [Option.some.injEq] at h1
        subst h1
        right
        exact ⟨rfl, by simp, by simp, hd.symm⟩
      · rename_i hd
        left
        refine ⟨h1, ?_⟩
        intro x hx
        rcases List.mem_cons.mp hx with rfl | hx
        · exact Ne.symm hd
        · exact h2 x hx
    · right
      refine ⟨h1, by omega, ?_, h4⟩
      have : pc.index - i = (pc.index - (i + 1)) + 1 := by omega
      rw [this, List.getElem?_cons_succ]
      exact h3

theorem saveMessages_mem {H : Hashes} {id i : Nat} {ms : List Message}
    {kv : KV Digest (PollContent Message)} {m : Message} (h : m ∈ ms) :
    ∃ pc, saveMessages H id i ms kv (m.hash H.msg) = some pc ∧ pc.pollId = id ∧ i ≤ pc.index ∧
      ms[pc.index - i]? = some pc.content ∧ pc.content.hash H.msg = m.hash H.msg := by
  have hsome : ∀ (ms : List Message) i kv, m ∈ ms →
      ∃ pc, saveMessages H id i ms kv (m.hash H.msg) = some pc := by
    intro ms
    induction ms with
    | nil => intro i kv h; simp at h
    | cons x t ih =>
      intro i kv h
      unfold saveMessages
      by_cases hx : ∃ y ∈ t, y.hash H.msg = m.hash H.msg
      · obtain ⟨y, hy, hyd⟩ := hx
        have : ∀ (l : List Message) j kv, y ∈ l → ∃ pc, saveMessages H id j l kv (m.hash H.msg) = some pc := by
          intro l
          induction l with
          | nil => intro j kv h; simp at h
          | cons z l ihl =>
            intro j kv hz
            unfold saveMessages
            by_cases hyl : y ∈ l
            · exact ihl _ _ hyl
            · have hzy : y = z := by
                rcases List.mem_cons.mp hz with h | h
                · exact h
                · exact absurd h hyl
              subst hzy
              by_cases hex : ∀ w ∈ l, w.hash H.msg ≠ m.hash H.msg
              · rw [saveMessages_other hex, hyd]
                exact ⟨_, KV.set_self _ _ _⟩
              · cases hs : saveMessages H id (j+1) l (kv.set (y.hash H.msg) ⟨y, id, j⟩) (m.hash H.msg) with
                | some pc => exact ⟨pc, rfl⟩
                | none =>
                  exfalso
                  have gen : ∀ (l : List Message) j (kv : KV Digest (PollContent Message)),
                      kv (m.hash H.msg) ≠ none → saveMessages H id j l kv (m.hash H.msg) ≠ none := by
                    intro l
                    induction l with
                    | nil => intro j kv h; exact h
                    | cons w l ih2 =>
                      intro j kv h
                      unfold saveMessages
                      apply ih2
                      rw [KV.set_apply]
                      split
                      · simp
                      · exact h
                  refine gen l (j+1) _ ?_ hs
                  rw [KV.set_apply, if_pos hyd.symm]
                  simp
        exact this t _ _ hy
      · have hm : m = x := by
          rcases List.mem_cons.mp h with h | h
          · exact h
          · exact absurd ⟨m, h, rfl⟩ hx
        subst hm
        rw [saveMessages_other (fun y hy hyd => hx ⟨y, hy, hyd⟩)]
        exact ⟨_, KV.set_self _ _ _⟩
  obtain ⟨pc, hpc⟩ := hsome ms i kv h
  refine ⟨pc, hpc, ?_⟩
  rcases saveMessages_cases hpc with ⟨_, h2⟩ | h
  · exact absurd rfl (h2 m h)
  · exact h

theorem mem_pending {H : Hashes} {s : State} {ms : List Message} {m : Message} :
    m ∈ pending H s ms ↔ m ∈ ms ∧
      (msgStatus H s m = .ok .notVerified ∨ msgStatus H s m = .ok .failedToVerify) := by
  unfold pending
  rw [List.mem_filter]
  constructor
  · rintro ⟨h1, h2⟩
    refine ⟨h1, ?_⟩
    split at h2
    · rename_i st hst
      cases st <;> simp_all [needsPoll]
    · simp at h2
  · rintro ⟨h1, h2 | h2⟩ <;> exact ⟨h1, by rw [h2]; rfl⟩

/-! ### the invariant -/

/-- The fixed data of a stored poll come from the call `c` that opened it. -/
def OpenedBy (cfg : Config) (c : Call) (r : Resp) (id : Nat) (sp : StoredPoll) : Prop :=
  ∃ ws snap, c.workers = some ws ∧
    Snapshot.new cfg.threshold (ws.map (fun w => (w.address, 1))) = .ok snap ∧
    sp.poll.voters = snap.participants ∧ sp.poll.quorum = snap.quorum ∧
    sp.poll.expiresAt = c.height + cfg.blockExpiry ∧
    startedMeta r = some (metaOf cfg id c.height snap)

/-- What is known about a stored poll. -/
structure PollInv (cfg : Config) (log : List (Call × Resp)) (id : Nat) (sp : StoredPoll) : Prop where
  pid : sp.poll.pollId = id
  reach : ReachablePoll sp.poll
  opened : ∃ c r, (c, r) ∈ log ∧ OpenedBy cfg c r id sp
  ballots : ∀ a vs, sp.poll.ballot a = some vs →
    ∃ c r, (c, r) ∈ log ∧ c.sender = a ∧ c.msg = .vote id vs ∧ c.height < sp.poll.expiresAt

/-- What is known about a message recorded for a poll. -/
def MsgInv (H : Hashes) (cfg : Config) (log : List (Call × Resp)) (s : State) (d : Digest)
    (pc : PollContent Message) : Prop :=
  pc.content.hash H.msg = d ∧ pc.content.ccId.chain = cfg.sourceChain ∧
  ∃ sp c r batch confs pm cf, s.polls pc.pollId = some sp ∧ sp.kind = .messages ∧
    pc.index < sp.poll.pollSize ∧
    (c, r) ∈ log ∧ OpenedBy cfg c r pc.pollId sp ∧ c.msg = .verifyMessages batch ∧
    pc.content ∈ batch ∧ r.event = some (.messagesPollStarted confs pm) ∧
    confirmationOf pc.content = .ok cf ∧ confs[pc.index]? = some cf

/-- What is known about a worker set recorded for a poll. -/
def SetInv (H : Hashes) (cfg : Config) (log : List (Call × Resp)) (s : State) (d : Digest)
    (pc : PollContent Operators) : Prop :=
  H.ops pc.content = d ∧ pc.index = 0 ∧
  ∃ sp c r mid tx n pm, s.polls pc.pollId = some sp ∧ sp.kind = .workerSet ∧ sp.poll.pollSize = 1 ∧
    (c, r) ∈ log ∧ OpenedBy cfg c r pc.pollId sp ∧ c.msg = .verifyWorkerSet mid pc.content ∧
    parseMessageId mid = some (tx, n) ∧ r.event = some (.workerSetPollStarted tx n pc.content pm)

/-- The invariant relating log and state. -/
structure Inv (H : Hashes) (cfg : Config) (log : List (Call × Resp)) (s : State) : Prop where
  config : s.config = cfg
  bound : ∀ id sp, s.polls id = some sp → 1 ≤ id ∧ id ≤ s.lastPollId
  ids : startedIds log = List.range' 1 s.lastPollId
  polls : ∀ id sp, s.polls id = some sp → PollInv cfg log id sp
  msgs : ∀ d pc, s.pollMessages d = some pc → MsgInv H cfg log s d pc
  sets : ∀ d pc, s.pollWorkerSets d = some pc → SetInv H cfg log s d pc
  rewards : ∀ m ∈ rewardMsgs log, ∃ id sp, m.eventId = showNat id ∧ s.polls id = some sp ∧
    sp.poll.status = .finished
  once : (rewardMsgs log).Nodup

theorem inv_init (H : Hashes) (cfg : Config) : Inv H cfg [] (init cfg) where
  config := rfl
  bound := by intro id sp h; simp [init] at h
  ids := rfl
  polls := by intro id sp h; simp [init] at h
  msgs := by intro d pc h; simp [init] at h
  sets := by intro d pc h; simp [init] at h
  rewards := by simp [rewardMsgs]
  once := by simp [rewardMsgs]

theorem voters_new (id : Nat) (snap : Snapshot) (e n : Nat) :
    (Poll.new id snap e n).voters = snap.participants := by
  simp only [Poll.voters, Poll.new, List.map_map]
  exact List.map_id _

/-- polls persist with their fixed data across a step -/
theorem poll_persists {s s' : State} {c : Call} {r : Resp} (hst : PollStep s s' c r)
    {cfg : Config} {log : List (Call × Resp)} {H : Hashes} (hi : Inv H cfg log s)
    {id : Nat} {sp : StoredPoll} (h : s.polls id = some sp) :
    ∃ sp', s'.polls id = some sp' ∧ sp'.kind = sp.kind ∧ sp'.poll.voters = sp.poll.voters ∧
      sp'.poll.quorum = sp.poll.quorum ∧ sp'.poll.expiresAt = sp.poll.expiresAt ∧
      sp'.poll.pollSize = sp.poll.pollSize ∧ sp'.poll.pollId = sp.poll.pollId ∧
      (sp'.poll = sp.poll ∨ ∃ o, sp.poll.exec o = .ok (sp'.poll, ())) ∧
      (sp.poll.status = .finished → sp'.poll.status = .finished) := by
  cases hst with
  | same hp hl hs hm => exact ⟨sp, by rw [hp]; exact h, rfl, rfl, rfl, rfl, rfl, rfl, Or.inl rfl, fun h => h⟩
  | opened k ws snap n hw hsn hp hl hs hm =>
    refine ⟨sp, ?_, rfl, rfl, rfl, rfl, rfl, rfl, Or.inl rfl, fun h => h⟩
    rw [hp, KV.set_ne, h]
    have := (hi.bound id sp h).2
    omega
  | op id' sp0 o p hsp hx hp hl hs ho =>
    rw [hp, KV.set_apply]
    by_cases hid : id = id'
    · subst hid
      rw [hsp] at h
      simp only [Option.some.injEq] at h
      subst h
      obtain ⟨f1, f2, f3, f4, f5⟩ := Poll.exec_frame (hi.polls id sp0 hsp).reach.wf hx
      refine ⟨_, if_pos rfl, rfl, f5, f2, f3, f4, f1, Or.inr ⟨o, hx⟩, ?_⟩
      intro hf
      rcases Poll.exec_ok hx with ⟨_, _, _, _, hc⟩ | ⟨_, _, hc⟩
      · obtain ⟨_, _, _, _, _, rfl⟩ := Poll.castVote_ok hc
        exact hf
      · obtain ⟨_, _, rfl⟩ := Poll.finish_ok hc
        rfl
    · exact ⟨sp, by rw [if_neg hid]; exact h, rfl, rfl, rfl, rfl, rfl, rfl, Or.inl rfl, fun h => h⟩

theorem OpenedBy.persist {cfg : Config} {c : Call} {r : Resp} {id : Nat} {sp sp' : StoredPoll}
    (h : OpenedBy cfg c r id sp) (h1 : sp'.poll.voters = sp.poll.voters)
    (h2 : sp'.poll.quorum = sp.poll.quorum) (h3 : sp'.poll.expiresAt = sp.poll.expiresAt) :
    OpenedBy cfg c r id sp' := by
  obtain ⟨ws, snap, g1, g2, g3, g4, g5, g6⟩ := h
  exact ⟨ws, snap, g1, g2, by rw [h1]; exact g3, by rw [h2]; exact g4, by rw [h3]; exact g5, g6⟩

theorem MsgInv.persist {H : Hashes} {cfg : Config} {log : List (Call × Resp)} {s s' : State}
    {c : Call} {r : Resp} (hi : Inv H cfg log s) (hst : PollStep s s' c r) {d : Digest}
    {pc : PollContent Message} (h : MsgInv H cfg log s d pc) :
    MsgInv H cfg (log ++ [(c, r)]) s' d pc := by
  obtain ⟨h1, h2, sp, c0, r0, batch, confs, pm, cf, h3, h4, h5, h6, h7, h8, h9, h10, h11, h12⟩ := h
  obtain ⟨sp', g1, g2, g3, g4, g5, g6, g7, g8, g9⟩ := poll_persists hst hi h3
  exact ⟨h1, h2, sp', c0, r0, batch, confs, pm, cf, g1, by rw [g2]; exact h4, by omega,
    by simp [h6], h7.persist g3 g4 g5, h8, h9, h10, h11, h12⟩

theorem SetInv.persist {H : Hashes} {cfg : Config} {log : List (Call × Resp)} {s s' : State}
    {c : Call} {r : Resp} (hi : Inv H cfg log s) (hst : PollStep s s' c r) {d : Digest}
    {pc : PollContent Operators} (h : SetInv H cfg log s d pc) :
    SetInv H cfg (log ++ [(c, r)]) s' d pc := by
  obtain ⟨h1, h2, sp, c0, r0, mid, tx, n, pm, h3, h4, h5, h6, h7, h8, h9, h10⟩ := h
  obtain ⟨sp', g1, g2, g3, g4, g5, g6, g7, g8, g9⟩ := poll_persists hst hi h3
  exact ⟨h1, h2, sp', c0, r0, mid, tx, n, pm, g1, by rw [g2]; exact h4, by omega,
    by simp [h6], h7.persist g3 g4 g5, h8, h9, h10⟩

theorem inv_step {H : Hashes} {cfg : Config} (hv : cfg.Valid) {log : List (Call × Resp)}
    {s s' : State} {c : Call} {r : Resp} (hi : Inv H cfg log s) (hx : exec H s c = .ok (s', r)) :
    Inv H cfg (log ++ [(c, r)]) s' := by
  have hst := exec_pollStep hx
  have hcfg : s'.config = cfg := by rw [exec_config hx, hi.config]
  have hids : startedIds (log ++ [(c, r)]) =
      startedIds log ++ ((startedMeta r).map (·.pollId)).toList := by
    unfold startedIds
    rw [List.filterMap_append]
    cases h : startedMeta r <;> simp [h]
  have hrw : rewardMsgs (log ++ [(c, r)]) = rewardMsgs log ++ r.msgs := by simp [rewardMsgs]
  have hpollInv : ∀ id sp, s'.polls id = some sp → PollInv cfg (log ++ [(c, r)]) id sp := by
    intro id sp h
    cases hst with
    | same hp hl hs hm =>
      rw [hp] at h
      obtain ⟨p1, p2, ⟨c0, r0, p3, p4⟩, p5⟩ := hi.polls id sp h
      refine ⟨p1, p2, ⟨c0, r0, by simp [p3], p4⟩, ?_⟩
      intro a vs hb
      obtain ⟨c1, r1, q1, q2⟩ := p5 a vs hb
      exact ⟨c1, r1, by simp [q1], q2⟩
    | opened k ws snap n hw hsn hp hl hs hm =>
      rw [hp, KV.set_apply] at h
      split at h
      · rename_i hid
        simp only [Option.some.injEq] at h
        subst h
        subst hid
        refine ⟨rfl, ?_, ⟨c, r, by simp, ws, snap, hw, ?_, voters_new _ _ _ _, rfl, ?_, ?_⟩, ?_⟩
        · exact ⟨_, _, _, _, snap, _, _, _, [], hv, by rw [← hi.config]; exact hsn, rfl⟩
        · rw [← hi.config]; exact hsn
        · rw [← hi.config]; rfl
        · rw [← hi.config]; exact hs
        · intro a vs hb; rw [Poll.new_ballot] at hb; simp at hb
      · obtain ⟨p1, p2, ⟨c0, r0, p3, p4⟩, p5⟩ := hi.polls id sp h
        refine ⟨p1, p2, ⟨c0, r0, by simp [p3], p4⟩, ?_⟩
        intro a vs hb
        obtain ⟨c1, r1, q1, q2⟩ := p5 a vs hb
        exact ⟨c1, r1, by simp [q1], q2⟩
    | op id' sp0 o p hsp hxo hp hl hs ho =>
      rw [hp, KV.set_apply] at h
      split at h
      · rename_i hid
        subst hid
        simp only [Option.some.injEq] at h
        subst h
        obtain ⟨p1, p2, ⟨c0, r0, p3, p4⟩, p5⟩ := hi.polls id sp0 hsp
        obtain ⟨f1, f2, f3, f4, f5⟩ := Poll.exec_frame p2.wf hxo
        refine ⟨by rw [f1]; exact p1, ?_, ⟨c0, r0, by simp [p3], p4.persist f5 f2 f3⟩, ?_⟩
        · have := p2.run [o]
          simp only [Poll.run, runCalls_cons, runCalls_nil, hxo, commit] at this
          exact this
        · intro a vs hb
          rcases Poll.exec_ballot hxo a with hsame | ⟨_, ht, vs', g1, g2, g3⟩
          · rw [hsame] at hb
            obtain ⟨c1, r1, q1, q2, q3, q4⟩ := p5 a vs hb
            exact ⟨c1, r1, by simp [q1], q2, q3, by simp only [f3]; exact q4⟩
          · rcases ho with ⟨vs0, m1, m2, _⟩ | ⟨_, m2, _⟩
            · rw [g1] at m2
              simp only [PollOp.cast.injEq] at m2
              obtain ⟨e1, e2, e3⟩ := m2
              simp only at hb
              rw [g3] at hb
              simp only [Option.some.injEq] at hb
              refine ⟨c, r, by simp, e2.symm, by rw [m1, ← e3, hb], ?_⟩
              simp only [f3]
              omega
            · rw [g1] at m2; simp at m2
      · obtain ⟨p1, p2, ⟨c0, r0, p3, p4⟩, p5⟩ := hi.polls id sp h
        refine ⟨p1, p2, ⟨c0, r0, by simp [p3], p4⟩, ?_⟩
        intro a vs hb
        obtain ⟨c1, r1, q1, q2⟩ := p5 a vs hb
        exact ⟨c1, r1, by simp [q1], q2⟩
  refine ⟨hcfg, ?_, ?_, hpollInv, ?_, ?_, ?_, ?_⟩
  · -- bound
    intro id sp h
    cases hst with
    | same hp hl hs hm => rw [hp] at h; rw [hl]; exact hi.bound id sp h
    | opened k ws snap n hw hsn hp hl hs hm =>
      rw [hp, KV.set_apply] at h
      rw [hl]
      split at h
      · omega
      · have := hi.bound id sp h; omega
    | op id' sp0 o p hsp hxo hp hl hs ho =>
      rw [hp, KV.set_apply] at h
      rw [hl]
      split at h
      · rename_i hid; rw [hid]; exact hi.bound id' sp0 hsp
      · exact hi.bound id sp h
  · -- ids
    rw [hids, hi.ids]
    cases hst with
    | same hp hl hs hm => rw [hs, hl]; simp
    | opened k ws snap n hw hsn hp hl hs hm =>
      rw [hs, hl, List.range'_concat]
      simp [metaOf]; omega
    | op id' sp0 o p hsp hxo hp hl hs ho => rw [hs, hl]; simp
  · -- messages
    intro d pc h
    unfold exec at hx
    split at hx
    · rename_i ms hmsg
      obtain ⟨h1, h2, ans, sts, h3, h4, h5, h6, ⟨h7, rfl, h8⟩ |
        ⟨h7, ws, snap, confs, h8, h9, h10, h11, rfl⟩⟩ := verifyMessages_ok hx
      · exact (hi.msgs d pc h).persist hi hst
      · simp only at h
        rcases saveMessages_cases h with ⟨g1, _⟩ | ⟨g1, g2, g3, g4⟩
        · exact (hi.msgs d pc g1).persist hi hst
        · have hmem : pc.content ∈ pending H s ms := List.mem_of_getElem? g3
          have hb := (mem_pending.mp hmem).1
          obtain ⟨cf, e1, e2⟩ := mapE_getElem? h10 g3
          refine ⟨g4, by rw [h2 _ hb, hi.config],
            ⟨.messages, Poll.new (s.lastPollId + 1) snap (c.height + s.config.blockExpiry)
              (pending H s ms).length⟩, c, r, ms, confs, _, cf, ?_, rfl, ?_,
            by simp, ?_, hmsg, hb, h11, e1, by simpa using e2⟩
          · rw [g1]; exact KV.set_self _ _ _
          · simp only [Poll.new]
            have := List.getElem?_eq_some_iff.mp g3
            obtain ⟨hlt, _⟩ := this
            omega
          · refine ⟨ws, snap, h8, by rw [← hi.config]; exact h9, voters_new _ _ _ _, rfl, ?_, ?_⟩
            · rw [← hi.config]; rfl
            · rw [← hi.config, g1]; simp [startedMeta, h11]
    · obtain ⟨sp, p, h1, h2, rfl, rfl⟩ := vote_ok hx
      exact (hi.msgs d pc h).persist hi hst
    · obtain ⟨sp, p, h1, h2, rfl, rfl⟩ := endPoll_ok hx
      exact (hi.msgs d pc h).persist hi hst
    · obtain ⟨_, ws, snap, tx, n, h1, h2, h3, rfl, rfl⟩ := verifyWorkerSet_ok hx
      exact (hi.msgs d pc h).persist hi hst
  · -- worker sets
    intro d pc h
    unfold exec at hx
    split at hx
    · obtain ⟨h1, h2, ans, sts, h3, h4, h5, h6, ⟨h7, rfl, h8⟩ |
        ⟨h7, ws, snap, confs, h8, h9, h10, h11, rfl⟩⟩ := verifyMessages_ok hx
      · exact (hi.sets d pc h).persist hi hst
      · exact (hi.sets d pc h).persist hi hst
    · obtain ⟨sp, p, h1, h2, rfl, rfl⟩ := vote_ok hx
      exact (hi.sets d pc h).persist hi hst
    · obtain ⟨sp, p, h1, h2, rfl, rfl⟩ := endPoll_ok hx
      exact (hi.sets d pc h).persist hi hst
    · rename_i mid o hmsg
      obtain ⟨_, ws, snap, tx, n, h1, h2, h3, rfl, rfl⟩ := verifyWorkerSet_ok hx
      simp only [KV.set_apply] at h
      split at h
      · rename_i hd
        simp only [Option.some.injEq] at h
        subst h
        refine ⟨hd.symm, rfl,
          ⟨.workerSet, Poll.new (s.lastPollId + 1) snap (c.height + s.config.blockExpiry) 1⟩,
          c, _, mid, tx, n, _, KV.set_self _ _ _, rfl, rfl,
          List.mem_append_right _ (List.mem_singleton.mpr rfl), ?_, hmsg, h3, rfl⟩
        refine ⟨ws, snap, h1, by rw [← hi.config]; exact h2, voters_new _ _ _ _, rfl, ?_, ?_⟩
        · rw [← hi.config]; rfl
        · rw [← hi.config]; rfl
      · exact (hi.sets d pc h).persist hi hst
  · -- rewards
    intro m hm
    rw [hrw, List.mem_append] at hm
    rcases hm with hm | hm
    · obtain ⟨id, sp, h1, h2, h3⟩ := hi.rewards m hm
      obtain ⟨sp', g1, _, _, _, _, _, _, _, g9⟩ := poll_persists hst hi h2
      exact ⟨id, sp', h1, g1, g9 h3⟩
    · cases hst with
      | same hp hl hs hm' => rw [hm'] at hm; simp at hm
      | opened k ws snap n hw hsn hp hl hs hm' => rw [hm'] at hm; simp at hm
      | op id' sp0 o p hsp hxo hp hl hs ho =>
        rcases ho with ⟨_, _, _, m3⟩ | ⟨_, m2, m3⟩
        · rw [m3] at hm; simp at hm
        · rw [m3, List.mem_map] at hm
          obtain ⟨a, _, rfl⟩ := hm
          refine ⟨id', _, rfl, by rw [hp]; exact KV.set_self _ _ _, ?_⟩
          rw [m2] at hxo
          rcases Poll.exec_ok hxo with ⟨_, _, _, hf, _⟩ | ⟨_, _, hc⟩
          · simp at hf
          · obtain ⟨_, _, rfl⟩ := Poll.finish_ok hc
            rfl
  · -- once
    rw [hrw]
    cases hst with
    | same hp hl hs hm => rw [hm]; simpa using hi.once
    | opened k ws snap n hw hsn hp hl hs hm => rw [hm]; simpa using hi.once
    | op id' sp0 o p hsp hxo hp hl hs ho =>
      rcases ho with ⟨_, _, _, m3⟩ | ⟨_, m2, m3⟩
      · rw [m3]; simpa using hi.once
      · have hre := (hi.polls id' sp0 hsp).reach
        rw [m2] at hxo
        have hfin : sp0.poll.status = .inProgress := by
          rcases Poll.exec_ok hxo with ⟨_, _, _, hf, _⟩ | ⟨_, _, hc⟩
          · simp at hf
          · exact (Poll.finish_ok hc).1
        have hre' : ReachablePoll p := by
          have := hre.run [.finish c.height]
          simp only [Poll.run, runCalls_cons, runCalls_nil, hxo, commit] at this
          exact this
        rw [List.nodup_append]
        refine ⟨hi.once, ?_, ?_⟩
        · rw [m3]
          have hs := (C08_consensus_participants hre').2
          have hnd : p.state.consensusParticipants.Nodup := hs.imp (fun h => Nat.ne_of_lt h)
          refine List.Pairwise.map _ ?_ hnd
          intro a b hab he
          simp only [RewardMsg.mk.injEq] at he
          exact hab he.2.2
        · intro m hm m' hm' he
          subst he
          obtain ⟨id, sp, h1, h2, h3⟩ := hi.rewards m hm
          rw [m3, List.mem_map] at hm'
          obtain ⟨a, _, rfl⟩ := hm'
          have := showNat_inj h1
          subst this
          rw [hsp] at h2
          simp only [Option.some.injEq] at h2
          subst h2
          rw [hfin] at h3
          simp at h3

theorem inv_reachable (H : Hashes) {cfg : Config} (hv : cfg.Valid) (cs : List Call) :
    Inv H cfg (history H cfg cs) (stateAfter H cfg cs) :=
  outs_inv (P := fun log s => Inv H cfg log s) (exec H) (init cfg) (inv_init H cfg)
    (fun _ _ _ _ _ hi hx => inv_step hv hi hx) cs

end Amp.VV
