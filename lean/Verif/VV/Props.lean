import Verif.VV.Lemmas

/-!
# C09 - C16: the voting verifier

All statements range over every configuration that passes validation, every pair of hash functions, and
every history: any list of calls with arbitrary senders, heights and service registry answers.
-/

namespace Amp.VV

open Amp.Std Amp.Router Amp.Registry OMap

/-! ### helper: from tallies to voters -/

theorem mem_of_mem_ofList {l : List (Addr × Nat)} {e : Addr × Nat} (h : e ∈ OMap.ofList l) : e ∈ l := by
  have hsub : ∀ (l : List (Addr × Nat)) (m : OMap Addr Nat) e,
      e ∈ l.foldl (fun m e => OMap.set m e.1 e.2) m → e ∈ l ∨ e ∈ m := by
    intro l
    induction l with
    | nil => intro m e h; exact Or.inr h
    | cons z t ih =>
      intro m e h
      rcases ih _ e h with h | h
      · exact Or.inl (List.mem_cons_of_mem _ h)
      · rcases mem_set h with h | h
        · exact Or.inl (by rw [h]; simp)
        · exact Or.inr h
  rcases hsub l [] e h with h | h
  · exact h
  · simp at h

theorem quorumOf_of_consensus {H : Hashes} {cfg : Config} (hv : cfg.Valid)
    {log : List (Call × Resp)} {s : State} (hi : Inv H cfg log s) {id i : Nat} {sp : StoredPoll}
    (hsp : s.polls id = some sp) {c : Call} {r : Resp} (hop : OpenedBy cfg c r id sp)
    (hc : sp.poll.consensus i = .ok (some .succeededOnChain)) (hlt : i < sp.poll.pollSize) :
    ∃ ws, c.workers = some ws ∧
      QuorumOf cfg.threshold log ws id i (c.height + cfg.blockExpiry) := by
  obtain ⟨ws, snap, h1, h2, h3, h4, h5, h6⟩ := hop
  have hpi := hi.polls id sp hsp
  rw [C06_consensus_iff hpi.reach hlt] at hc
  refine ⟨ws, h1, (sp.poll.participation.filter
    (fun e => votesFor i .succeededOnChain e.2)).map Prod.fst, ?_, ?_, ?_⟩
  · have hs : (sp.poll.participation.filter
        (fun e => votesFor i .succeededOnChain e.2)).Pairwise (fun a b => a.1 < b.1) :=
      List.Pairwise.filter _ hpi.reach.wf.sorted
    exact List.Pairwise.map _ (fun a b h => Nat.ne_of_lt h) hs
  · intro a ha
    obtain ⟨⟨k, x⟩, hx, rfl⟩ := List.mem_map.mp ha
    obtain ⟨hx1, hx2⟩ := List.mem_filter.mp hx
    constructor
    · have hvot : (k, x.weight) ∈ sp.poll.voters := List.mem_map.mpr ⟨(k, x), hx1, rfl⟩
      rw [h3, (Snapshot.new_ok h2).2.2.2.2] at hvot
      obtain ⟨w, hw, he⟩ := List.mem_map.mp (mem_of_mem_ofList hvot)
      simp only [Prod.mk.injEq] at he
      exact ⟨w, hw, he.1⟩
    · unfold votesFor at hx2
      simp only at hx2
      cases hvt : x.vote with
      | none => rw [hvt] at hx2; simp at hx2
      | some vs =>
        rw [hvt] at hx2
        have hb : sp.poll.ballot k = some vs := by
          unfold Poll.ballot
          rw [get?_of_mem hpi.reach.wf.sorted hx1]
          exact hvt
        obtain ⟨c', r', g1, g2, g3, g4⟩ := hpi.ballots k vs hb
        exact ⟨c', r', vs, g1, g2, g3, by simpa using hx2, by rw [← h5]; exact g4⟩
  · have hw1 : ∀ e ∈ sp.poll.participation, e.2.weight = 1 := by
      rintro ⟨k, x⟩ hx
      have hvot : (k, x.weight) ∈ sp.poll.voters := List.mem_map.mpr ⟨(k, x), hx, rfl⟩
      rw [h3, (Snapshot.new_ok h2).2.2.2.2] at hvot
      obtain ⟨w, hw, he⟩ := List.mem_map.mp (mem_of_mem_ofList hvot)
      simp only [Prod.mk.injEq] at he
      exact he.2.symm
    have hlen : sp.poll.votedWeight i .succeededOnChain =
        (sp.poll.participation.filter (fun e => votesFor i .succeededOnChain e.2)).length := by
      unfold Poll.votedWeight
      revert hw1
      generalize sp.poll.participation = l
      intro hw1
      induction l with
      | nil => rfl
      | cons e t ih =>
        rw [sumBy_cons, ih (fun x hx => hw1 x (by simp [hx])), List.filter_cons]
        split
        · rw [hw1 e (by simp)]; simp; omega
        · omega
    have hq := ((Snapshot.majority hv h2).2.2 snap.quorum).mp (Nat.le_refl _)
    have htw : totalWeight (ws.map (fun w => (w.address, 1))) = ws.length := by
      unfold totalWeight
      induction ws with
      | nil => rfl
      | cons w t _ => simp [Function.comp_def]; omega
    rw [htw] at hq
    rw [List.length_map, ← hlen]
    rw [h4] at hc
    exact le_trans hq (Nat.mul_le_mul_right _ hc)

theorem verificationStatus_verified {α : Type} [DecidableEq α] {s : State}
    {st : Option (PollContent α)} {x : α} (h : verificationStatus s st x = .ok .verified) :
    ∃ pc sp, st = some pc ∧ pc.content = x ∧ s.polls pc.pollId = some sp ∧
      sp.poll.consensus pc.index = .ok (some .succeededOnChain) := by
  unfold verificationStatus at h
  split at h
  · simp at h
  rename_i pc
  split at h
  · simp at h
  rename_i hc
  split at h
  · simp at h
  rename_i sp hsp
  split at h
  · simp at h
  rename_i rr hr
  split at h
  · rename_i he
    exact ⟨pc, sp, rfl, by simpa using hc, hsp, by rw [hr, he]⟩
  · split at h <;> simp at h

/-! ### a concrete history for the non-vacuity checks -/

/-- three bonded workers -/
def exWorkers : List Worker :=
  [⟨1, .bonded 5, .authorized, "s".toList⟩, ⟨2, .bonded 7, .authorized, "s".toList⟩,
   ⟨3, .bonded 5, .authorized, "s".toList⟩]

/-- threshold 2/3, expiry 10 blocks -/
def exCfg : Config :=
  ⟨90, "s".toList, "gw".toList, ⟨2, 3⟩, 10, 1, "eth".toList, 91⟩

/-- a message from the configured chain -/
def exMsg : Message :=
  ⟨⟨"eth".toList, "0xab:1".toList⟩, "0xs".toList, "avax".toList, "0xd".toList, [7]⟩

/-- another one -/
def exMsg2 : Message :=
  ⟨⟨"eth".toList, "0xcd:2".toList⟩, "0xs".toList, "avax".toList, "0xd".toList, [7]⟩

/-- toy hash functions (the theorems hold for all) -/
def exH : Hashes := ⟨fun p => p.1.length + 1000 * (p.1.map Char.toNat).sum, fun o => o.threshold⟩

/-- an operator set -/
def exOps : Operators := ⟨[([1, 2], 1)], 1⟩

/-- a batch of two is polled, two of three vote for the first one, a third votes differently, the poll
is ended, and a worker set is polled and confirmed -/
def exCalls : List Call :=
  [⟨100, 50, some exWorkers, .verifyMessages [exMsg, exMsg2]⟩,
   ⟨101, 1, none, .vote 1 [.succeededOnChain, .notFound]⟩,
   ⟨102, 2, none, .vote 1 [.succeededOnChain, .succeededOnChain]⟩,
   ⟨102, 3, none, .vote 1 [.failedOnChain, .failedOnChain]⟩,
   ⟨103, 51, some exWorkers, .verifyWorkerSet "0xee:0".toList exOps⟩,
   ⟨104, 2, none, .vote 2 [.succeededOnChain]⟩,
   ⟨105, 3, none, .vote 2 [.succeededOnChain]⟩,
   ⟨110, 52, none, .endPoll 1⟩]

theorem exCfg_valid : exCfg.Valid := by unfold Config.Valid; decide

/-! ### C09 -/

/-- C09: a message reported verified was in the batch of a call that opened a poll for it, and a quorum
of the workers active at that call voted for exactly that item of that poll before it expired. -/
theorem C09_verified_sound (H : Hashes) (cfg : Config) (hv : cfg.Valid) (cs : List Call) (m : Message)
    (h : msgStatus H (stateAfter H cfg cs) m = .ok .verified) :
    ∃ c r batch confs pm i cf ws, (c, r) ∈ history H cfg cs ∧ c.msg = .verifyMessages batch ∧
      m ∈ batch ∧ r.event = some (.messagesPollStarted confs pm) ∧
      confirmationOf m = .ok cf ∧ confs[i]? = some cf ∧ c.workers = some ws ∧
      QuorumOf cfg.threshold (history H cfg cs) ws pm.pollId i (c.height + cfg.blockExpiry) := by
  have hi := inv_reachable H hv cs
  obtain ⟨pc, sp, h1, h2, h3, h4⟩ := verificationStatus_verified h
  obtain ⟨_, _, sp', c, r, batch, confs, pm, cf, g1, g2, g3, g4, g5, g6, g7, g8, g9, g10⟩ :=
    hi.msgs _ pc h1
  rw [h3] at g1
  simp only [Option.some.injEq] at g1
  subst g1
  obtain ⟨ws, w1, w2⟩ := quorumOf_of_consensus hv hi h3 g5 h4 g3
  subst h2
  refine ⟨c, r, batch, confs, pm, pc.index, cf, ws, g4, g6, g7, g8, g9, g10, w1, ?_⟩
  have hpm : pm.pollId = pc.pollId := by
    obtain ⟨_, _, _, _, _, _, _, hm⟩ := g5
    simp only [startedMeta, g8, Option.some.injEq] at hm
    rw [hm]; rfl
  rw [hpm]
  exact w2

/-- C09: a quorum is a strict majority: more than half of the active workers. -/
theorem C09_quorum_is_majority (cfg : Config) (hv : cfg.Valid) {log : List (Call × Resp)}
    {ws : List Worker} {id i limit : Nat} (hne : ws ≠ [])
    (h : QuorumOf cfg.threshold log ws id i limit) :
    ∃ voters : List Addr, voters.Nodup ∧ ws.length < 2 * voters.length ∧
      ∀ a ∈ voters, (∃ w ∈ ws, w.address = a) ∧ VotedFor log a id i .succeededOnChain limit := by
  obtain ⟨voters, h1, h2, h3⟩ := h
  refine ⟨voters, h1, ?_, h2⟩
  obtain ⟨_, _, g1, g2, g3⟩ := MajorityThreshold.ofPair_ok hv
  have hpos : 0 < ws.length := List.length_pos_iff.mpr hne
  by_contra hc
  have hc : 2 * voters.length ≤ ws.length := by omega
  have e1 : 2 * voters.length * cfg.threshold.den ≤ ws.length * cfg.threshold.den :=
    Nat.mul_le_mul_right _ hc
  have e2 : ws.length * (cfg.threshold.den + 1) ≤ ws.length * (2 * cfg.threshold.num) :=
    Nat.mul_le_mul_left _ (by omega)
  have e4 : 2 * voters.length * cfg.threshold.den = 2 * (voters.length * cfg.threshold.den) := by ring
  have e5 : ws.length * (2 * cfg.threshold.num) = 2 * (ws.length * cfg.threshold.num) := by ring
  have e6 : ws.length * (cfg.threshold.den + 1) = ws.length * cfg.threshold.den + ws.length := by ring
  omega

example : exCfg.Valid ∧ msgStatus exH (stateAfter exH exCfg exCalls) exMsg = .ok .verified ∧
    msgStatus exH (stateAfter exH exCfg exCalls) exMsg2 = .ok .failedToVerify ∧
    (history exH exCfg exCalls).length = 8 := by
  refine ⟨exCfg_valid, ?_, ?_, ?_⟩ <;> decide

/-! ### C10 -/

theorem status_persists {α : Type} [DecidableEq α] {H : Hashes} {cfg : Config}
    {log : List (Call × Resp)} {s s' : State} {c : Call} {r : Resp} (hi : Inv H cfg log s)
    (hst : PollStep s s' c r) {st : Option (PollContent α)} {x : α}
    (h : verificationStatus s st x = .ok .verified) :
    verificationStatus s' st x = .ok .verified := by
  obtain ⟨pc, sp, rfl, h2, h3, h4⟩ := verificationStatus_verified h
  obtain ⟨sp', g1, _, _, _, _, _, _, g8, _⟩ := poll_persists hst hi h3
  have hcons : sp'.poll.consensus pc.index = .ok (some .succeededOnChain) := by
    rcases g8 with e | ⟨o, e⟩
    · rw [e]; exact h4
    · have := C06_stable (hi.polls _ _ h3).reach [o] h4
      simp only [Poll.run, runCalls_cons, runCalls_nil, e, commit] at this
      exact this
  unfold verificationStatus
  simp only [h2, g1, hcons, ne_eq, not_true_eq_false, if_false, if_true]

theorem verified_step {H : Hashes} {cfg : Config} {log : List (Call × Resp)} {s s' : State}
    {c : Call} {r : Resp} (hi : Inv H cfg log s) (hx : exec H s c = .ok (s', r)) {m : Message}
    (h : msgStatus H s m = .ok .verified) : msgStatus H s' m = .ok .verified := by
  have hst := exec_pollStep hx
  have hsame : s'.pollMessages (m.hash H.msg) = s.pollMessages (m.hash H.msg) := by
    unfold exec at hx
    split at hx
    · rename_i ms hmsg
      obtain ⟨h1, h2, ans, sts, h3, h4, h5, h6, ⟨h7, rfl, h8⟩ |
        ⟨h7, ws, snap, confs, h8, h9, h10, h11, rfl⟩⟩ := verifyMessages_ok hx
      · rfl
      · simp only
        apply saveMessages_other
        intro m' hm' he
        obtain ⟨pc, sp, g1, g2, g3, g4⟩ := verificationStatus_verified h
        have hst' := (mem_pending.mp hm').2
        unfold msgStatus at hst'
        rw [he, g1] at hst'
        have hcm : pc.content = m' := by
          by_contra hne
          simp [verificationStatus, hne] at hst'
        rw [g2] at hcm
        subst hcm
        rw [← g1] at hst'
        unfold msgStatus at h
        rw [h] at hst'
        simp at hst'
    · obtain ⟨_, _, _, _, rfl, _⟩ := vote_ok hx; rfl
    · obtain ⟨_, _, _, _, rfl, _⟩ := endPoll_ok hx; rfl
    · obtain ⟨_, _, _, _, _, _, _, _, _, rfl⟩ := verifyWorkerSet_ok hx; rfl
  unfold msgStatus
  rw [hsame]
  exact status_persists hi hst h

theorem ops_verified_step {H : Hashes} {cfg : Config} {log : List (Call × Resp)} {s s' : State}
    {c : Call} {r : Resp} (hi : Inv H cfg log s) (hx : exec H s c = .ok (s', r)) {o : Operators}
    (h : opsStatus H s o = .ok .verified) : opsStatus H s' o = .ok .verified := by
  have hst := exec_pollStep hx
  have hsame : s'.pollWorkerSets (H.ops o) = s.pollWorkerSets (H.ops o) := by
    unfold exec at hx
    split at hx
    · obtain ⟨h1, h2, ans, sts, h3, h4, h5, h6, ⟨h7, rfl, h8⟩ |
        ⟨h7, ws, snap, confs, h8, h9, h10, h11, rfl⟩⟩ := verifyMessages_ok hx <;> rfl
    · obtain ⟨_, _, _, _, rfl, _⟩ := vote_ok hx; rfl
    · obtain ⟨_, _, _, _, rfl, _⟩ := endPoll_ok hx; rfl
    · rename_i mid o' hmsg
      obtain ⟨hnv, ws, snap, tx, n, h1, h2, h3, rfl, rfl⟩ := verifyWorkerSet_ok hx
      simp only
      apply KV.set_ne
      intro he
      obtain ⟨pc, sp, g1, g2, g3, g4⟩ := verificationStatus_verified h
      unfold isWorkerSetVerified opsStatus at hnv
      rw [← he, g1] at hnv
      by_cases hne : pc.content = o'
      · rw [← hne, g2, ← g1] at hnv
        unfold opsStatus at h
        rw [h] at hnv
        simp at hnv
      · simp [verificationStatus, hne] at hnv
  unfold opsStatus
  rw [hsame]
  exact status_persists hi hst h

theorem run_persist {H : Hashes} {cfg : Config} (hv : cfg.Valid) {P : State → Prop}
    (hstep : ∀ log s s' c r, Inv H cfg log s → exec H s c = .ok (s', r) → P s → P s')
    (cs ds : List Call) (h : P (stateAfter H cfg cs)) : P (stateAfter H cfg (cs ++ ds)) := by
  unfold stateAfter
  rw [runCalls_append]
  have hi := inv_reachable H hv cs
  revert hi h
  unfold stateAfter
  generalize history H cfg cs = log
  generalize runCalls (exec H) (init cfg) cs = s
  intro h hi
  induction ds generalizing s log with
  | nil => exact h
  | cons c ds ih =>
    rw [runCalls_cons]
    cases hx : exec H s c with
    | error e => exact ih log s h hi
    | ok x =>
      obtain ⟨s', r⟩ := x
      exact ih _ s' (hstep log s s' c r hi hx h) (inv_step hv hi hx)

/-- C10: verification of a message is permanent. -/
theorem C10_verified_forever (H : Hashes) (cfg : Config) (hv : cfg.Valid) (cs ds : List Call)
    (m : Message) (h : msgStatus H (stateAfter H cfg cs) m = .ok .verified) :
    msgStatus H (stateAfter H cfg (cs ++ ds)) m = .ok .verified :=
  run_persist hv (P := fun s => msgStatus H s m = .ok .verified)
    (fun _ _ _ _ _ hi hx h => verified_step hi hx h) cs ds h

/-- C10: verification of a worker set is permanent. -/
theorem C10_worker_set_verified_forever (H : Hashes) (cfg : Config) (hv : cfg.Valid)
    (cs ds : List Call) (o : Operators) (h : opsStatus H (stateAfter H cfg cs) o = .ok .verified) :
    opsStatus H (stateAfter H cfg (cs ++ ds)) o = .ok .verified :=
  run_persist hv (P := fun s => opsStatus H s o = .ok .verified)
    (fun _ _ _ _ _ hi hx h => ops_verified_step hi hx h) cs ds h

example : msgStatus exH (stateAfter exH exCfg (exCalls.take 3)) exMsg = .ok .verified ∧
    msgStatus exH (stateAfter exH exCfg (exCalls.take 2)) exMsg = .ok .inProgress := by
  constructor <;> decide

/-! ### C11 -/

/-- C11: a successful `VerifyMessages` answers for every message of the batch, in order, whether it is
verified. -/
theorem C11_answers (H : Hashes) {s s' : State} {c : Call} {ms : List Message} {r : Resp}
    (hm : c.msg = .verifyMessages ms) (hx : exec H s c = .ok (s', r)) :
    ∃ l, r.data = .statuses l ∧ l.length = ms.length ∧
      ∀ (i : Nat) m, ms[i]? = some m → ∃ st, msgStatus H s m = .ok st ∧
        l[i]? = some (m.ccId, decide (st = .verified)) := by
  simp only [exec, hm] at hx
  obtain ⟨_, _, ans, sts, h3, h4, h5, _, _⟩ := verifyMessages_ok hx
  refine ⟨ans, h5, mapE_length h3, ?_⟩
  intro i m hi
  obtain ⟨b, h1, h2⟩ := mapE_getElem? h3 hi
  unfold isVerified1 at h1
  split at h1
  · simp at h1
  · rename_i st hst
    simp only [Except.ok.injEq] at h1
    exact ⟨st, hst, by rw [h2, ← h1]⟩

/-- C11: the new poll contains exactly the messages of the batch that are neither pending nor verified,
in the order given; if there is none, nothing happens at all. -/
theorem C11_polled_exactly (H : Hashes) {s s' : State} {c : Call} {ms : List Message} {r : Resp}
    (hm : c.msg = .verifyMessages ms) (hx : exec H s c = .ok (s', r)) :
    ∃ todo, List.Sublist todo ms ∧
      (∀ m ∈ ms, m ∈ todo ↔
        (msgStatus H s m = .ok .notVerified ∨ msgStatus H s m = .ok .failedToVerify)) ∧
      (∀ m, todo.count m = if m ∈ todo then ms.count m else 0) ∧
      (todo = [] → s' = s ∧ r.event = none) ∧
      (todo ≠ [] → ∃ confs pm sp, r.event = some (.messagesPollStarted confs pm) ∧
        mapE confirmationOf todo = .ok confs ∧ s'.polls pm.pollId = some sp ∧
        sp.kind = .messages ∧ sp.poll.pollSize = todo.length ∧ s.lastPollId < pm.pollId) := by
  simp only [exec, hm] at hx
  obtain ⟨_, _, ans, sts, _, _, _, _, hcase⟩ := verifyMessages_ok hx
  refine ⟨pending H s ms, List.filter_sublist, ?_, ?_, ?_, ?_⟩
  · intro m hmem
    rw [mem_pending]
    exact ⟨fun h => h.2, fun h => ⟨hmem, h⟩⟩
  · intro m
    split
    · rename_i hmem
      unfold pending at hmem ⊢
      rw [List.count_filter]
      exact (List.mem_filter.mp hmem).2
    · rename_i hmem
      exact List.count_eq_zero.mpr hmem
  · intro h
    rcases hcase with ⟨_, h1, h2⟩ | ⟨h1, _⟩
    · exact ⟨h1, h2⟩
    · exact absurd h h1
  · intro h
    rcases hcase with ⟨h1, _⟩ | ⟨_, ws, snap, confs, _, _, h3, h4, rfl⟩
    · exact absurd h1 h
    · exact ⟨confs, _, _, h4, h3, KV.set_self _ _ _, rfl, rfl, by simp [metaOf]⟩

/-- C11: a message that is in progress or verified stays in the poll it is in: a call asking to verify
it again does not move it to another poll. -/
theorem C11_not_repolled (H : Hashes) {s s' : State} {c : Call} {ms : List Message} {r : Resp}
    (hm : c.msg = .verifyMessages ms) (hx : exec H s c = .ok (s', r)) {m : Message}
    (h : msgStatus H s m = .ok .inProgress ∨ msgStatus H s m = .ok .verified) :
    s'.pollMessages (m.hash H.msg) = s.pollMessages (m.hash H.msg) := by
  simp only [exec, hm] at hx
  obtain ⟨_, _, ans, sts, _, _, _, _, ⟨_, rfl, _⟩ | ⟨_, ws, snap, confs, _, _, _, _, rfl⟩⟩ :=
    verifyMessages_ok hx
  · rfl
  · simp only
    apply saveMessages_other
    intro m' hm' he
    have hst' := (mem_pending.mp hm').2
    unfold msgStatus at hst' h
    rw [he] at hst'
    cases hg : s.pollMessages (m.hash H.msg) with
    | none => rw [hg] at h; simp [verificationStatus] at h
    | some pc =>
      rw [hg] at h hst'
      have e1 : pc.content = m := by
        by_contra hne
        simp [verificationStatus, hne] at h
      have e2 : pc.content = m' := by
        by_contra hne
        simp [verificationStatus, hne] at hst'
      rw [← e2, e1] at hst'
      rcases h with h | h <;> rw [h] at hst' <;> simp at hst'

/-- C11: right after a successful call every message of the batch is tracked: none of them is
`NotVerified` any more, and the ones just polled are in progress. -/
theorem C11_tracked_after (H : Hashes) (cfg : Config) (hv : cfg.Valid) (cs : List Call) {s' : State}
    {c : Call} {ms : List Message} {r : Resp} (hm : c.msg = .verifyMessages ms)
    (hx : exec H (stateAfter H cfg cs) c = .ok (s', r)) {m : Message} (hmem : m ∈ ms)
    (h : msgStatus H (stateAfter H cfg cs) m = .ok .notVerified ∨
      msgStatus H (stateAfter H cfg cs) m = .ok .failedToVerify)
    (hinj : ∀ m' ∈ ms, m'.hash H.msg = m.hash H.msg → m' = m) :
    msgStatus H s' m = .ok .inProgress := by
  have hi := inv_reachable H hv cs
  revert hi hx h
  generalize stateAfter H cfg cs = s
  generalize history H cfg cs = log
  intro hx h hi
  simp only [exec, hm] at hx
  have hpm : m ∈ pending H s ms := mem_pending.mpr ⟨hmem, h⟩
  obtain ⟨_, _, ans, sts, _, _, _, _, ⟨h1, _, _⟩ | ⟨_, ws, snap, confs, _, hsn, _, _, rfl⟩⟩ :=
    verifyMessages_ok hx
  · rw [h1] at hpm; simp at hpm
  · obtain ⟨pc, g1, g2, g3, g4, g5⟩ := saveMessages_mem (H := H) (id := s.lastPollId + 1) (i := 0)
      (kv := s.pollMessages) hpm
    have hc : pc.content = m :=
      hinj _ (mem_pending.mp (List.mem_of_getElem? g4)).1 g5
    have hreach : ReachablePoll (Poll.new (s.lastPollId + 1) snap (c.height + s.config.blockExpiry)
        (pending H s ms).length) :=
      ⟨_, _, _, _, snap, _, _, _, [], hv, by rw [← hi.config]; exact hsn, rfl⟩
    have hidx : pc.index < (pending H s ms).length := by
      obtain ⟨hlt, _⟩ := List.getElem?_eq_some_iff.mp g4
      omega
    have hnone := ((C06_no_consensus_iff hreach pc.index).1 hidx).mpr (by
      intro v
      rw [Poll.new_votedWeight]
      exact Nat.pos_of_ne_zero (Snapshot.new_ok hsn).2.2.2.1)
    unfold msgStatus
    simp only [g1, verificationStatus, hc, g2, KV.set_self, hnone]
    simp [Poll.new]

example : (∃ s' r, exec exH (stateAfter exH exCfg exCalls)
      ⟨120, 5, some exWorkers, .verifyMessages [exMsg, exMsg2]⟩ = .ok (s', r) ∧
      (match r.event with
        | some (.messagesPollStarted confs pm) => confs.length = 1 ∧ pm.pollId = 3
        | _ => False) ∧
      r.data = .statuses [(exMsg.ccId, true), (exMsg2.ccId, false)]) :=
  ⟨_, _, rfl, by decide, by decide⟩

/-! ### C12 -/

/-- C12: over any history the polls started have ids 1, 2, 3, ... -/
theorem C12_poll_ids (H : Hashes) (cfg : Config) (hv : cfg.Valid) (cs : List Call) :
    startedIds (history H cfg cs) = List.range' 1 (startedIds (history H cfg cs)).length := by
  have h := (inv_reachable H hv cs).ids
  rw [h]
  simp

/-- C12: a call changes no poll other than the one it names, and a call opening a poll changes no
existing poll. -/
theorem C12_isolation (H : Hashes) (cfg : Config) (hv : cfg.Valid) (cs : List Call) {s' : State}
    {c : Call} {r : Resp} (hx : exec H (stateAfter H cfg cs) c = .ok (s', r)) {id : Nat}
    (hex : (stateAfter H cfg cs).polls id ≠ none)
    (hnot : ∀ vs, c.msg ≠ .vote id vs) (hnot' : c.msg ≠ .endPoll id) :
    s'.polls id = (stateAfter H cfg cs).polls id := by
  have hi := inv_reachable H hv cs
  revert hi hx hex
  generalize stateAfter H cfg cs = s
  generalize history H cfg cs = log
  intro hx hex hi
  cases exec_pollStep hx with
  | same hp hl hs hm => rw [hp]
  | opened k ws snap n hw hsn hp hl hs hm =>
    rw [hp, KV.set_ne]
    intro he
    cases hg : s.polls id with
    | none => exact hex hg
    | some sp => have := (hi.bound id sp hg).2; omega
  | op id' sp0 o p hsp hxo hp hl hs ho =>
    rw [hp, KV.set_ne]
    intro he
    subst he
    rcases ho with ⟨vs, m1, _⟩ | ⟨m1, _⟩
    · exact hnot vs m1
    · exact hnot' m1

/-- C12: a poll never disappears and its kind, voters, weights, quorum, size and expiry never change. -/
theorem C12_fixed_data (H : Hashes) (cfg : Config) (hv : cfg.Valid) (cs ds : List Call) {id : Nat}
    {sp : StoredPoll} (h : (stateAfter H cfg cs).polls id = some sp) :
    ∃ sp', (stateAfter H cfg (cs ++ ds)).polls id = some sp' ∧ sp'.kind = sp.kind ∧
      sp'.poll.voters = sp.poll.voters ∧ sp'.poll.quorum = sp.poll.quorum ∧
      sp'.poll.expiresAt = sp.poll.expiresAt ∧ sp'.poll.pollSize = sp.poll.pollSize ∧
      (sp.poll.status = .finished → sp'.poll.status = .finished) := by
  refine run_persist hv (P := fun s => ∃ sp', s.polls id = some sp' ∧ sp'.kind = sp.kind ∧
      sp'.poll.voters = sp.poll.voters ∧ sp'.poll.quorum = sp.poll.quorum ∧
      sp'.poll.expiresAt = sp.poll.expiresAt ∧ sp'.poll.pollSize = sp.poll.pollSize ∧
      (sp.poll.status = .finished → sp'.poll.status = .finished)) ?_ cs ds
      ⟨sp, h, rfl, rfl, rfl, rfl, rfl, fun h => h⟩
  rintro log s s' c r hi hx ⟨sp1, h1, h2, h3, h4, h5, h6, h7⟩
  obtain ⟨sp', g1, g2, g3, g4, g5, g6, g7, g8, g9⟩ := poll_persists (exec_pollStep hx) hi h1
  exact ⟨sp', g1, by rw [g2, h2], by rw [g3, h3], by rw [g4, h4], by rw [g5, h5], by rw [g6, h6],
    fun h => g9 (h7 h)⟩

example : startedIds (history exH exCfg exCalls) = [1, 2] := by decide

/-! ### C13 -/

/-- C13: an empty batch, a batch with a message of another source chain, and a batch with a message
needing a poll whose id is malformed are rejected. -/
theorem C13_rejected (H : Hashes) (s : State) (c : Call) (ms : List Message)
    (hm : c.msg = .verifyMessages ms)
    (hbad : ms = [] ∨ (∃ m ∈ ms, m.ccId.chain ≠ s.config.sourceChain) ∨
      (∃ m ∈ ms, (msgStatus H s m = .ok .notVerified ∨ msgStatus H s m = .ok .failedToVerify) ∧
        ¬ ∃ tx idx n, m.ccId.id = tx ++ ':' :: idx ∧ tx ≠ [] ∧ ':' ∉ tx ∧ ':' ∉ idx ∧
          parseU64 idx = some n)) :
    ∃ e, exec H s c = .error e := by
  cases hx : exec H s c with
  | error e => exact ⟨e, rfl⟩
  | ok x =>
    obtain ⟨s', r⟩ := x
    exfalso
    simp only [exec, hm] at hx
    obtain ⟨h1, h2, ans, sts, _, _, _, _, hcase⟩ := verifyMessages_ok hx
    rcases hbad with h | ⟨m, hmem, h⟩ | ⟨m, hmem, hst, h⟩
    · exact h1 h
    · exact h (h2 m hmem)
    · have hp : m ∈ pending H s ms := mem_pending.mpr ⟨hmem, hst⟩
      rcases hcase with ⟨h0, _⟩ | ⟨_, ws, snap, confs, _, _, hc, _, _⟩
      · rw [h0] at hp; simp at hp
      · obtain ⟨b, _, hb⟩ := mapE_mem hc hp
        unfold confirmationOf at hb
        split at hb
        · simp at hb
        · rename_i tx n hpm
          unfold parseMessageId at hpm
          split at hpm
          · rename_i tx' idx hsp
            obtain ⟨e1, e2, e3⟩ := splitOn_eq_two.mp hsp
            split at hpm
            · simp at hpm
            · rename_i hne
              split at hpm
              · simp at hpm
              · rename_i k hk
                exact h ⟨tx', idx, k, e1, hne, e2, e3, hk⟩
          · simp at hpm

/-- C13: everything ever recorded for a poll belongs to the configured source chain. -/
theorem C13_source_chain_only (H : Hashes) (cfg : Config) (hv : cfg.Valid) (cs : List Call)
    {d : Digest} {pc : PollContent Message} (h : (stateAfter H cfg cs).pollMessages d = some pc) :
    pc.content.ccId.chain = cfg.sourceChain :=
  ((inv_reachable H hv cs).msgs d pc h).2.1

example : (∃ pc, (stateAfter exH exCfg exCalls).pollMessages (exMsg.hash exH.msg) = some pc) ∧
    exec exH (init exCfg) ⟨1, 1, some exWorkers, .verifyMessages
      [exMsg, { exMsg with ccId := ⟨"btc".toList, "0x:1".toList⟩ }]⟩ = .error .sourceChainMismatch ∧
    exec exH (init exCfg) ⟨1, 1, some exWorkers, .verifyMessages
      [exMsg, { exMsg with ccId := ⟨"eth".toList, ":1".toList⟩ }]⟩ = .error .invalidMessageId :=
  ⟨⟨_, rfl⟩, rfl, rfl⟩

/-! ### C14 -/

/-- two different messages with the same hash input: the event index digit `0` has moved into the
source address -/
def collideA : Message :=
  ⟨⟨"eth".toList, "0xab:1".toList⟩, "0xyz".toList, "avax".toList, "0xd".toList, [7]⟩
def collideB : Message :=
  ⟨⟨"eth".toList, "0xab:10".toList⟩, "xyz".toList, "avax".toList, "0xd".toList, [7]⟩

/-- C14 is false: whatever the hash function, after `collideA` was polled the different message
`collideB`, from the same chain and with a well-formed id, can neither be queried nor polled. -/
theorem C14_counterexample (H : Hashes) :
    collideA ≠ collideB ∧ collideA.hash H.msg = collideB.hash H.msg ∧
    (∃ s' r, exec H (init exCfg) ⟨100, 50, some exWorkers, .verifyMessages [collideA]⟩ = .ok (s', r) ∧
      msgStatus H (init exCfg) collideB = .ok .notVerified ∧
      msgStatus H s' collideB = .error .panic ∧
      exec H s' ⟨101, 50, some exWorkers, .verifyMessages [collideB]⟩ = .error .panic) := by
  have hAB : collideB.hash H.msg = collideA.hash H.msg := by
    unfold Message.hash; rw [show collideB.hashInput = collideA.hashInput by decide]
  have hne : collideA ≠ collideB := by decide
  have hA0 : msgStatus H (init exCfg) collideA = .ok .notVerified := rfl
  refine ⟨hne, hAB.symm, ?_⟩
  have hex : exec H (init exCfg) ⟨100, 50, some exWorkers, .verifyMessages [collideA]⟩ =
      .ok ({ init exCfg with
        lastPollId := 1
        polls := KV.set KV.empty 1 ⟨.messages, Poll.new 1 ⟨2, [(1, 1), (2, 1), (3, 1)]⟩ 110 1⟩
        pollMessages := KV.set KV.empty (collideA.hash H.msg) ⟨collideA, 1, 0⟩ },
        { data := .statuses [(collideA.ccId, false)]
          event := some (.messagesPollStarted
            [⟨"0xab".toList, 1, "0xd".toList, "avax".toList, "0xyz".toList, [7]⟩]
            ⟨1, "eth".toList, "gw".toList, 1, 110, [1, 2, 3]⟩) }) := by
    rfl
  refine ⟨_, _, hex, rfl, ?_, ?_⟩
  · unfold msgStatus
    rw [hAB]
    simp [verificationStatus, hne]
  · simp only [exec, verifyMessages]
    have : msgStatus H { init exCfg with
        lastPollId := 1
        polls := KV.set KV.empty 1 ⟨.messages, Poll.new 1 ⟨2, [(1, 1), (2, 1), (3, 1)]⟩ 110 1⟩
        pollMessages := KV.set KV.empty (collideA.hash H.msg) ⟨collideA, 1, 0⟩ } collideB =
        .error .panic := by
      unfold msgStatus
      rw [hAB]
      simp [verificationStatus, hne]
    rw [if_neg (by simp), if_neg (show ¬ ([collideB].any fun m => decide (m.ccId.chain ≠ (init exCfg).config.sourceChain)) = true by decide)]
    simp only [isVerified, mapE, isVerified1, this]

/-- C14, what holds: messages with different hashes do not interfere.  A `VerifyMessages` call whose
batch has no message with the hash of `m` does not change the status of `m`.  (The full property would
need this for all messages different from `m`.) -/
theorem C14_independent_partial (H : Hashes) (cfg : Config) (hv : cfg.Valid) (cs : List Call)
    {s' : State} {c : Call} {ms : List Message} {r : Resp} (hm : c.msg = .verifyMessages ms)
    (hx : exec H (stateAfter H cfg cs) c = .ok (s', r)) {m : Message}
    (hne : ∀ m' ∈ ms, m'.hash H.msg ≠ m.hash H.msg) :
    msgStatus H s' m = msgStatus H (stateAfter H cfg cs) m := by
  have hi := inv_reachable H hv cs
  revert hi hx
  generalize stateAfter H cfg cs = s
  generalize history H cfg cs = log
  intro hx hi
  simp only [exec, hm] at hx
  obtain ⟨_, _, ans, sts, _, _, _, _, ⟨_, rfl, _⟩ | ⟨_, ws, snap, confs, _, _, _, _, rfl⟩⟩ :=
    verifyMessages_ok hx
  · rfl
  · unfold msgStatus
    simp only
    rw [saveMessages_other (fun x hx => hne x (mem_pending.mp hx).1)]
    unfold verificationStatus
    cases hg : s.pollMessages (m.hash H.msg) with
    | none => rfl
    | some pc =>
      obtain ⟨_, _, sp, _, _, _, _, _, _, g1, _⟩ := hi.msgs _ pc hg
      have := (hi.bound _ _ g1).2
      simp only [KV.set_ne _ _ (show pc.pollId ≠ s.lastPollId + 1 by omega)]

/-- C14, what holds: even if two messages collide, a message is only ever reported verified because of
a poll opened for a batch containing that very message (this is C09 again, stated for the pair). -/
theorem C14_no_substitution (H : Hashes) (cfg : Config) (cs : List Call)
    (m m' : Message) (hne : m ≠ m')
    (h : msgStatus H (stateAfter H cfg cs) m = .ok .verified) :
    msgStatus H (stateAfter H cfg cs) m' ≠ .ok .verified ∨ m.hash H.msg ≠ m'.hash H.msg := by
  by_cases hh : m.hash H.msg = m'.hash H.msg
  · left
    intro h'
    obtain ⟨pc, _, h1, h2, _⟩ := verificationStatus_verified h
    obtain ⟨pc', _, h1', h2', _⟩ := verificationStatus_verified h'
    rw [hh, h1'] at h1
    simp only [Option.some.injEq] at h1
    exact hne (by rw [← h2, ← h2', h1])
  · exact Or.inr hh

/-! ### C15 -/

/-- C15: ending a poll records participation for exactly the consensus participants of that poll, with
the poll id as event id, at the configured rewards contract. -/
theorem C15_end_poll_rewards (H : Hashes) {s s' : State} {c : Call} {id : Nat} {r : Resp}
    (hm : c.msg = .endPoll id) (hx : exec H s c = .ok (s', r)) :
    ∃ sp, s.polls id = some sp ∧ r.data = .pollResult sp.poll.state ∧
      r.msgs = sp.poll.state.consensusParticipants.map (fun a => ⟨s.config.rewards, showNat id, a⟩) := by
  simp only [exec, hm] at hx
  obtain ⟨sp, p, h1, h2, _, rfl⟩ := endPoll_ok hx
  obtain ⟨_, _, rfl⟩ := Poll.finish_ok h2
  exact ⟨sp, h1, rfl, rfl⟩

/-- C15: no other call emits participation records. -/
theorem C15_only_end_poll (H : Hashes) {s s' : State} {c : Call} {r : Resp}
    (hx : exec H s c = .ok (s', r)) (hn : ∀ id, c.msg ≠ .endPoll id) : r.msgs = [] := by
  cases exec_pollStep hx with
  | same hp hl hs hm => exact hm
  | opened k ws snap n hw hsn hp hl hs hm => exact hm
  | op id' sp0 o p hsp hxo hp hl hs ho =>
    rcases ho with ⟨_, _, _, h⟩ | ⟨h, _⟩
    · exact h
    · exact absurd h (hn id')

/-- C15: over any history no participation record is emitted twice. -/
theorem C15_at_most_once (H : Hashes) (cfg : Config) (hv : cfg.Valid) (cs : List Call) :
    (rewardMsgs (history H cfg cs)).Nodup :=
  (inv_reachable H hv cs).once

example : rewardMsgs (history exH exCfg exCalls) =
    [⟨91, "1".toList, 1⟩, ⟨91, "1".toList, 2⟩] := by decide

/-! ### C16 -/

/-- C16: an operator set reported verified was polled, and a quorum of the workers active at that call
voted for it before the poll expired. -/
theorem C16_worker_set_sound (H : Hashes) (cfg : Config) (hv : cfg.Valid) (cs : List Call)
    (o : Operators) (h : opsStatus H (stateAfter H cfg cs) o = .ok .verified) :
    ∃ c r mid tx n pm ws, (c, r) ∈ history H cfg cs ∧ c.msg = .verifyWorkerSet mid o ∧
      parseMessageId mid = some (tx, n) ∧
      r.event = some (.workerSetPollStarted tx n o pm) ∧ c.workers = some ws ∧
      QuorumOf cfg.threshold (history H cfg cs) ws pm.pollId 0 (c.height + cfg.blockExpiry) := by
  have hi := inv_reachable H hv cs
  obtain ⟨pc, sp, h1, h2, h3, h4⟩ := verificationStatus_verified h
  obtain ⟨_, g0, sp', c, r, mid, tx, n, pm, g1, g2, g3, g4, g5, g6, g7, g8⟩ := hi.sets _ pc h1
  rw [h3] at g1
  simp only [Option.some.injEq] at g1
  subst g1
  obtain ⟨ws, w1, w2⟩ := quorumOf_of_consensus hv hi h3 g5 h4 (by omega)
  subst h2
  refine ⟨c, r, mid, tx, n, pm, ws, g4, g6, g7, g8, w1, ?_⟩
  have hpm : pm.pollId = pc.pollId := by
    obtain ⟨_, _, _, _, _, _, _, hm⟩ := g5
    simp only [startedMeta, g8, Option.some.injEq] at hm
    rw [hm]; rfl
  rw [hpm, ← g0]
  exact w2

/-- C16: a verified operator set can not be polled again. -/
theorem C16_not_repolled (H : Hashes) (s : State) (c : Call) (mid : Str) (o : Operators)
    (hm : c.msg = .verifyWorkerSet mid o) (h : opsStatus H s o = .ok .verified) :
    exec H s c = .error .workerSetAlreadyConfirmed := by
  simp [exec, hm, verifyWorkerSet, isWorkerSetVerified, h]

example : opsStatus exH (stateAfter exH exCfg exCalls) exOps = .ok .verified ∧
    opsStatus exH (stateAfter exH exCfg (exCalls.take 6)) exOps = .ok .inProgress := by
  constructor <;> decide

end Amp.VV
