import Verif.Ampd.PipelineProps
import Verif.Ampd.TrustProps

/-! # C92: concrete cases, and an answer that is lost -/

namespace Amp.Ampd

variable {R A : Type}

/-! ### Blocks on record are not handled again -/

theorem durableAcks_ne_nil {W : World R A} {l : Label} {rs : List Run} {b : Nat} (h : b ∈ durableAcks W l [] rs) :
    ∃ c, (durableAcks W l [] rs).getLast? = some c := by
  cases hc : (durableAcks W l [] rs).getLast? with
  | some c => exact ⟨c, rfl⟩
  | none => rw [List.getLast?_eq_none_iff] at hc; rw [hc] at h; simp at h

theorem blockBegin_blocks {W : World R A} {first n b : Nat} (h : Event.blockBegin b ∈ blocks W first n) : first ≤ b := by
  unfold blocks at h
  obtain ⟨x, hx, hb⟩ := List.mem_flatMap.mp h
  rw [List.mem_range'_1] at hx
  unfold frame at hb
  simp only [List.mem_cons, Event.blockBegin.injEq, List.mem_append, List.mem_map, reduceCtorEq, and_false,
    exists_false, List.not_mem_nil, or_false] at hb
  omega

/-- C92: a block on record as completed by a handler is not given to it again, in whatever further run. -/
theorem C92_never_again (W : World R A) (l : Label) (rs : List Run) (r : Run) (h : Sane W l [] (rs ++ [r]))
    (b : Nat) (hb : b ∈ durableAcks W l [] rs) : .blockBegin b ∉ (handlerOut W (fileAfterAll W rs) r l).1 := by
  obtain ⟨c, hc⟩ := durableAcks_ne_nil hb
  obtain ⟨k, N, _, _, h3⟩ := C67_resume_partial W l rs r c h hc
  have hmono := h.mono
  rw [allReports_append] at hmono
  have hs : Sane W l [] rs := ⟨((eachRun_append W _ [] rs [r]).mp h.labels).1,
    ((eachRun_append W _ [] rs [r]).mp h.nolag).1, (List.pairwise_append.mp hmono).1⟩
  obtain ⟨first, n, h4⟩ := (C67_contiguous_partial W l rs hs).1
  intro hin
  have := blockBegin_blocks (h3.subset hin)
  rw [h4] at hb hc
  rw [List.mem_range'_1] at hb
  cases n with
  | zero => omega
  | succ n =>
    rw [List.range'_concat, List.getLast?_concat] at hc
    simp only [Option.some.injEq] at hc
    omega

/-! ### A worker's daemon with the message verification handler of an EVM chain -/

/-- the announcement of the poll in `exTrustCalls` -/
def pipeEvent : Abci (Addr × VV.Event) :=
  announced 10 (.messagesPollStarted [⟨"0xab".toList, 1, "0xd".toList, "avax".toList, "0xs".toList, [7]⟩]
    ⟨1, "eth".toList, "gw".toList, 1, 110, [1, 2, 3]⟩)

/-- the poll is opened in block 5, other blocks are empty -/
def pipeWorld : World (Abci (Addr × VV.Event)) (Abci (Addr × VV.Event)) where
  chain h := ⟨none, if h = 5 then some [[pipeEvent]] else none, none⟩
  decode := some

/-- worker 1's handler -/
def pipeHandle (e : Event (Abci (Addr × VV.Event))) : Outcome :=
  Evm.handleMessages Router.asciiLower some (Evm.readMessagesPoll Router.asciiLower Evm.exTrustReader)
    ⟨1, 10, .other "eth".toList⟩ Evm.exTrustEnv e

def pipeOutcome (_ : Label) (e : Event (Abci (Addr × VV.Event))) (o : Outcome) : Prop := o = pipeHandle e

/-- what it answers to the announcement -/
def pipeBallot : ExecTx := ⟨1, 10, .vote 1 [.succeededOnChain]⟩

theorem pipeHandle_event : pipeHandle (.abci pipeEvent) = ⟨[pipeBallot], .ok ()⟩ := by rfl

/-- blocks 5 and 6 are handled, and the daemon is asked to stop -/
def pipeRun : Run where
  sub := ⟨some 5, [okTick 6]⟩
  handlers := [(0, served 5 (List.replicate 4 okReply ++ [⟨true, true, true⟩]))]
  flushed := true

/-- the queue is flushed at the end of the process with these replies -/
def pipeProcess (final : Replies) : Process where
  run := pipeRun
  outcomes _ := [.ignored, ⟨[pipeBallot], .ok ()⟩, .ignored, .ignored, .ignored]
  sequence := 3
  inputs := [.tick (exOk 0), .msg pipeBallot (some 40) (exOk 0)]
  final := some final

theorem pipeOut : handlerOut pipeWorld [] pipeRun 0 =
    ([.blockBegin 5, .abci pipeEvent, .blockEnd 5, .blockBegin 6, .blockEnd 6], [5, 6]) := by decide +kernel

theorem pipeGenuine (final : Replies) : Genuine pipeWorld pipeOutcome exCfg [] (pipeProcess final) where
  labels := show (pipeRun.handlers.map Prod.fst).Nodup by decide
  outcomes := by
    intro h hh
    have : h = (0, served 5 (List.replicate 4 okReply ++ [⟨true, true, true⟩])) := by
      simpa [pipeProcess, pipeRun] using hh
    subst this
    show _ = (handlerOut pipeWorld [] pipeRun 0).1.length ∧ ∀ i e o, (handlerOut pipeWorld [] pipeRun 0).1[i]? = some e → _
    rw [pipeOut]
    refine ⟨rfl, ?_⟩
    intro i e o he ho
    have hi : i < 5 := (List.getElem?_eq_some_iff.mp he).1
    have hsucc : ∀ (i : Nat) (rep : HandleReply), (List.replicate 4 okReply ++ [⟨true, true, true⟩])[i]? = some rep →
        rep.handled = true := by
      intro i rep hr
      have := List.mem_of_getElem? hr
      simp only [List.mem_append, List.mem_replicate, List.mem_singleton] at this
      rcases this with ⟨_, rfl⟩ | rfl <;> rfl
    have key : o = pipeHandle e ∧ o.succeeded := by
      simp only [pipeProcess] at ho
      match i, hi with
      | 0, _ => simp only [List.getElem?_cons_zero, Option.some.injEq] at he ho; subst he ho; exact ⟨rfl, rfl⟩
      | 1, _ =>
        simp only [List.getElem?_cons_succ, List.getElem?_cons_zero, Option.some.injEq] at he ho
        subst he ho
        exact ⟨pipeHandle_event.symm, rfl⟩
      | 2, _ =>
        simp only [List.getElem?_cons_succ, List.getElem?_cons_zero, Option.some.injEq] at he ho
        subst he ho; exact ⟨rfl, rfl⟩
      | 3, _ =>
        simp only [List.getElem?_cons_succ, List.getElem?_cons_zero, Option.some.injEq] at he ho
        subst he ho; exact ⟨rfl, rfl⟩
      | 4, _ =>
        simp only [List.getElem?_cons_succ, List.getElem?_cons_zero, Option.some.injEq] at he ho
        subst he ho; exact ⟨rfl, rfl⟩
    exact ⟨key.1, fun rep hr => ⟨fun _ => key.2, fun _ => hsucc i rep hr⟩⟩
  channel := ⟨[pipeBallot], .cons (l₁ := []) (l₂ := []) (.nil (by simp [Outcome.queued, Outcome.ignored])), List.prefix_rfl, fun _ _ => rfl⟩

theorem pipeSane (final : Replies) : Sane pipeWorld 0 [] ([pipeProcess final].map Process.run) :=
  ⟨⟨show (pipeRun.handlers.map Prod.fst).Nodup by decide, trivial⟩, ⟨by intro h _ _; simp [skipped, OMap.get?], trivial⟩,
    show (allReports pipeWorld [] [pipeRun]).Pairwise (· ≤ ·) by decide⟩

theorem pipeAcks (final : Replies) : durableAcks pipeWorld 0 [] ([pipeProcess final].map Process.run) = [5, 6] := by
  show (if pipeRun.flushed then (handlerOut pipeWorld [] pipeRun 0).2 else []) ++ [] = _
  rw [pipeOut]; rfl

/-- the hypotheses of `C92_answered_partial` hold: the ballot is in the only transaction -/
example : ∃ p ∈ [pipeProcess (exOk 50)], ∃ o, pipeOutcome 0 (.abci pipeEvent) o ∧ o.succeeded ∧
    (∀ t ∈ o.sent, ∃ tx ∈ p.transactions exCfg, t ∈ tx.msgs) ∧
    (p.queue exCfg).1.client.sequence = p.sequence + (p.transactions exCfg).length :=
  C92_answered_partial pipeWorld pipeOutcome exCfg 0 [pipeProcess (exOk 50)] (pipeSane _) ⟨pipeGenuine _, trivial⟩
    (by intro p hp _
        rw [List.mem_singleton] at hp
        subst hp
        exact ⟨rfl, by decide⟩) 5 (by rw [pipeAcks]; simp) pipeEvent pipeEvent (by decide) rfl

example : (pipeProcess (exOk 50)).transactions exCfg = [⟨[pipeBallot], 50, 50, 3⟩] := by decide

/-- the ballot's way: given to the node, answer of the handler to the announcement -/
example : ∃ h ∈ pipeRun.handlers, ∃ e ∈ (handlerOut pipeWorld [] pipeRun h.1).1, ∃ o, pipeOutcome h.1 e o ∧ o.succeeded ∧
    pipeBallot ∈ o.sent :=
  C92_origin pipeWorld pipeOutcome exCfg [] (pipeProcess (exOk 50)) (pipeGenuine _) ⟨[pipeBallot], 50, 50, 3⟩
    (List.mem_of_getElem? (i := 0) rfl) pipeBallot (List.mem_singleton_self _)

/-- the process is killed after a tick -/
def pipeKilled : Process :=
  { pipeProcess (exOk 50) with run := { pipeRun with flushed := false },
                               inputs := [.msg pipeBallot (some 40) (exOk 0), .tick (exOk 50)], final := none }

theorem pipeKilled_genuine : Genuine pipeWorld pipeOutcome exCfg [] pipeKilled where
  labels := (pipeGenuine (exOk 50)).labels
  outcomes := (pipeGenuine (exOk 50)).outcomes
  channel := ⟨[pipeBallot], .cons (l₁ := []) (l₂ := []) (.nil (by simp [Outcome.queued, Outcome.ignored])),
    List.prefix_rfl, fun _ _ => rfl⟩

/-- the hypotheses of `C92_answered` hold: the ballot is in a transaction although the process never ended -/
example : ∃ tx ∈ pipeKilled.transactions exCfg, pipeBallot ∈ tx.msgs := by
  obtain ⟨o, _, h1, _, h3⟩ := C92_answered pipeWorld pipeOutcome exCfg 0 [] pipeKilled
    ⟨(pipeSane (exOk 50)).labels, (pipeSane (exOk 50)).nolag, (pipeSane (exOk 50)).mono⟩
    pipeKilled_genuine 5 (by show 5 ∈ (handlerOut pipeWorld [] pipeRun 0).2; rw [pipeOut]; simp) pipeEvent pipeEvent
    (by decide) rfl
  refine h3 pipeBallot ?_ (Or.inr ⟨[.msg pipeBallot (some 40) (exOk 0)], exOk 50, [], rfl, List.mem_singleton_self _, by decide⟩)
  unfold pipeOutcome at h1
  rw [h1, pipeHandle_event]
  exact List.mem_singleton_self _

/-- the node cannot be reached when the queue is flushed -/
def pipeFailed : Process := pipeProcess ⟨none, true, true, fun _ => .unavailable⟩

/-- C92 does not hold in full: the blocks of a handler are on record as completed before what it answered is
broadcast, and the state is written even if broadcasting fails.  Here the worker's daemon handles the
announcement of a poll, the flush of the queue fails at the end, and blocks 5 and 6 are on record: the ballot
is in no transaction, and in no further run is the handler given block 5 again. -/
theorem C92_counterexample :
    ∃ ps : List Process, Sane pipeWorld 0 [] (ps.map Process.run) ∧
      EachProcess pipeWorld (Genuine pipeWorld pipeOutcome exCfg) [] ps ∧
      5 ∈ durableAcks pipeWorld 0 [] (ps.map Process.run) ∧ pipeEvent ∈ contents (pipeWorld.chain 5) ∧
      (∀ o, pipeOutcome 0 (.abci pipeEvent) o → pipeBallot ∈ o.sent) ∧
      (∀ p ∈ ps, p.transactions exCfg = []) ∧
      ∀ (more : List Run) (r : Run), Sane pipeWorld 0 [] (ps.map Process.run ++ more ++ [r]) →
        .blockBegin 5 ∉ (handlerOut pipeWorld (fileAfterAll pipeWorld (ps.map Process.run ++ more)) r 0).1 := by
  refine ⟨[pipeFailed], pipeSane _, ⟨pipeGenuine _, trivial⟩, by rw [pipeFailed, pipeAcks]; simp, by decide, ?_, ?_, ?_⟩
  · rintro o rfl
    rw [pipeHandle_event]
    exact List.mem_singleton_self _
  · intro p hp
    rw [List.mem_singleton] at hp
    subst hp
    rfl
  · intro more r hs
    refine C92_never_again pipeWorld 0 _ r hs 5 ?_
    have happ : ∀ (rs rs' : List Run) (f : StateFile), durableAcks pipeWorld 0 f (rs ++ rs') =
        durableAcks pipeWorld 0 f rs ++ durableAcks pipeWorld 0 (rs.foldl (fileAfter pipeWorld) f) rs' := by
      intro rs rs'
      induction rs with
      | nil => intro f; rfl
      | cons r rs ih => intro f; simp [durableAcks, ih]
    rw [happ, pipeFailed, pipeAcks]
    simp

end Amp.Ampd
