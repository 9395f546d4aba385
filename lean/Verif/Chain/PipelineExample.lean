import Verif.Chain.PipelineProps
import Verif.Chain.DaemonsExample
import Verif.Ampd.PipelineExample
import Verif.Ampd.ConfigProps

/-! # C92: a concrete case

The history of `Chain/DaemonsExample.lean`: workers 5 and 6 run the daemon. -/

namespace Amp.Chain

open Amp.Ampd (Process Outcome Label okTick okReply served exOk exCfg)

/-- events as the daemon reads them -/
def exReadsEvents : View Ampd.Any where
  verifier x := match x.2 with | .inl ev => some (x.1, ev) | .inr _ => none
  multisig x := match x.2 with | .inl _ => none | .inr ev => some (x.1, ev)

/-- the announcement is in block 5 -/
def exBlocks (x : Ampd.Abci Ampd.Any) : Ampd.World (Ampd.Abci Ampd.Any) (Ampd.Abci Ampd.Any) where
  chain h := ⟨none, if h = 5 then some [[x]] else none, none⟩
  decode := some

/-- the process is still running; the handler's answer was broadcast at a tick -/
def exProcess (t : Ampd.ExecTx) : Process where
  run := { Ampd.pipeRun with flushed := false }
  outcomes _ := [.ignored, ⟨[t], .ok ()⟩, .ignored, .ignored, .ignored]
  sequence := 0
  inputs := [.msg t (some 40) (exOk 0), .tick (exOk 50)]
  final := none

theorem exGiven (x : Ampd.Abci Ampd.Any) : Ampd.handlerOut (exBlocks x) [] { Ampd.pipeRun with flushed := false } 0 =
    ([.blockBegin 5, .abci x, .blockEnd 5, .blockBegin 6, .blockEnd 6], [5, 6]) := rfl

theorem exGenuine (x : Ampd.Abci Ampd.Any) (t : Ampd.ExecTx)
    (outcome : Label → Ampd.Event (Ampd.Abci Ampd.Any) → Outcome → Prop)
    (hb : ∀ h, outcome 0 (.blockBegin h) .ignored) (he : ∀ h, outcome 0 (.blockEnd h) .ignored)
    (hx : outcome 0 (.abci x) ⟨[t], .ok ()⟩) : Ampd.Genuine (exBlocks x) outcome exCfg [] (exProcess t) where
  labels := show (Ampd.pipeRun.handlers.map Prod.fst).Nodup by decide
  outcomes := by
    intro h hh
    have : h = (0, served 5 (List.replicate 4 okReply ++ [⟨true, true, true⟩])) := by
      simpa [exProcess, Ampd.pipeRun] using hh
    subst this
    show _ = (Ampd.handlerOut (exBlocks x) [] { Ampd.pipeRun with flushed := false } 0).1.length ∧
      ∀ i e o, (Ampd.handlerOut (exBlocks x) [] { Ampd.pipeRun with flushed := false } 0).1[i]? = some e → _
    rw [exGiven]
    refine ⟨rfl, ?_⟩
    intro i e o he' ho
    have hi : i < 5 := (List.getElem?_eq_some_iff.mp he').1
    have hsucc : ∀ (i : Nat) (rep : Ampd.HandleReply), (List.replicate 4 okReply ++ [⟨true, true, true⟩])[i]? = some rep →
        rep.handled = true := by
      intro i rep hr
      have := List.mem_of_getElem? hr
      simp only [List.mem_append, List.mem_replicate, List.mem_singleton] at this
      rcases this with ⟨_, rfl⟩ | rfl <;> rfl
    have key : outcome 0 e o ∧ o.succeeded := by
      simp only [exProcess] at ho
      match i, hi with
      | 0, _ =>
        simp only [List.getElem?_cons_zero, Option.some.injEq] at he' ho; subst he' ho; exact ⟨hb _, rfl⟩
      | 1, _ =>
        simp only [List.getElem?_cons_succ, List.getElem?_cons_zero, Option.some.injEq] at he' ho
        subst he' ho; exact ⟨hx, rfl⟩
      | 2, _ =>
        simp only [List.getElem?_cons_succ, List.getElem?_cons_zero, Option.some.injEq] at he' ho
        subst he' ho; exact ⟨he _, rfl⟩
      | 3, _ =>
        simp only [List.getElem?_cons_succ, List.getElem?_cons_zero, Option.some.injEq] at he' ho
        subst he' ho; exact ⟨hb _, rfl⟩
      | 4, _ =>
        simp only [List.getElem?_cons_succ, List.getElem?_cons_zero, Option.some.injEq] at he' ho
        subst he' ho; exact ⟨he _, rfl⟩
    exact ⟨key.1, fun rep hr => ⟨fun _ => key.2, fun _ => hsucc i rep hr⟩⟩
  channel := ⟨[t], .cons (l₁ := []) (l₂ := []) (.nil (by simp [Outcome.queued, Outcome.ignored])),
    List.prefix_rfl, fun _ _ => rfl⟩

theorem exTransactions (t : Ampd.ExecTx) : (exProcess t).transactions exCfg = [⟨[t], 50, 50, 0⟩] := rfl

theorem exSane (x : Ampd.Abci Ampd.Any) : Ampd.Sane (exBlocks x) 0 [] [{ Ampd.pipeRun with flushed := false }] :=
  ⟨⟨show (Ampd.pipeRun.handlers.map Prod.fst).Nodup by decide, trivial⟩,
    ⟨by intro h _ _; simp [Ampd.skipped, OMap.get?], trivial⟩, by
      rw [show Ampd.allReports (exBlocks x) [] [{ Ampd.pipeRun with flushed := false }] = [5, 6] from rfl]
      decide⟩

theorem exAnswers (t : Ampd.ExecTx) : (exProcess t).answers 0 = [t] := rfl

theorem exCaught (t : Ampd.ExecTx) : (exProcess t).Caught exCfg t :=
  Or.inr ⟨[.msg t (some 40) (exOk 0)], exOk 50, [], rfl, List.mem_singleton_self _, rfl⟩

/-! ### Verification -/

/-- the announcement of the poll -/
def exAnnouncement : Ampd.Abci Ampd.Any := Ampd.announcedAny 12 (.inl (.messagesPollStarted exPollConfs exPollMeta))

/-- what a worker's only handler does -/
def exOutcome (a : Addr) (l : Label) (e : Ampd.Event (Ampd.Abci Ampd.Any)) (o : Outcome) : Prop :=
  l = 0 ∧ o = Ampd.Evm.handleMessages Router.asciiLower some (fun x => (exReadsEvents.verifier x).bind
    (Ampd.Evm.readMessagesPoll Router.asciiLower Ampd.Evm.exTrustReader)) ⟨a, 12, .other eth⟩ exEnv e

def exVote (a : Addr) : Ampd.ExecTx := ⟨a, 12, .vote 1 [.succeededOnChain, .succeededOnChain]⟩

theorem exHandles : ∀ a ∈ [5, 6], Ampd.Evm.handleMessages Router.asciiLower some (fun x => (exReadsEvents.verifier x).bind
    (Ampd.Evm.readMessagesPoll Router.asciiLower Ampd.Evm.exTrustReader)) ⟨a, 12, .other eth⟩ exEnv
      (.abci exAnnouncement) = ⟨[exVote a], .ok ()⟩ := by
  intro a ha
  simp only [List.mem_cons, List.not_mem_nil, or_false] at ha
  rcases ha with rfl | rfl <;> rfl

theorem exVotesGenuine (a : Addr) (ha : a ∈ [5, 6]) :
    Ampd.Genuine (exBlocks exAnnouncement) (exOutcome a) exCfg [] (exProcess (exVote a)) :=
  exGenuine _ _ _ (fun _ => ⟨rfl, rfl⟩) (fun _ => ⟨rfl, rfl⟩) ⟨rfl, (exHandles a ha).symm⟩

theorem exAuthentic : Authentic exReadsEvents (exBlocks exAnnouncement) 12 (log exP exSetup (exPolled ++ exVoteTxs)) := by
  intro b r x ev hr hd hv
  obtain ⟨l₁, e, l₂, c, resp, _, hl, ht, ha, _, _, _, _, _, hev, _⟩ := exOpened
  have hx : x = exAnnouncement := by
    unfold exBlocks at hr hd
    simp only [Option.some.injEq] at hd
    subst hd
    by_cases hb : b = 5
    · simpa [Ampd.contents, hb] using hr
    · simp [Ampd.contents, hb] at hr
  subst hx
  have hev' : ev = .messagesPollStarted exPollConfs exPollMeta := by
    simp only [exReadsEvents, exAnnouncement, Ampd.announcedAny, Option.some.injEq, Prod.mk.injEq] at hv
    exact hv.2.symm
  subst hev'
  refine ⟨e, ?_, c, resp, ht, ha, hev⟩
  have : ∃ l', log exP exSetup (exPolled ++ exVoteTxs) = log exP exSetup exPolled ++ l' := by
    unfold log
    rw [outs_append, List.flatMap_append]
    exact ⟨_, rfl⟩
  obtain ⟨l', h⟩ := this
  rw [h, hl]
  simp

theorem exOperates : ∀ a ∈ [5, 6], Operates exP exSetup exPolled exVoteTxs exEvm 12 a exPollConfs exPollMeta
    ⟨"0xab".toList, 1, Prover.exAddress, sui, "0xs".toList, List.replicate 32 7⟩ exReadsEvents (exBlocks exAnnouncement) 5 exCfg 0
    (exOutcome a) [] (exProcess (exVote a)) := by
  intro a ha
  refine ⟨?_, ?_, exSane _, exVotesGenuine a ha, ?_, ?_, ?_, ?_, ?_⟩
  · rintro e o ⟨_, rfl⟩
    exact ⟨exEnv, rfl, rfl⟩
  · rintro l' hl' e o ⟨h, _⟩
    exact absurd h hl'
  · show 5 ∈ (Ampd.handlerOut (exBlocks exAnnouncement) [] { Ampd.pipeRun with flushed := false } 0).2
    rw [exGiven]; simp
  · rintro x o ⟨hx1, hx2⟩ ⟨_, rfl⟩ _
    have hx : x = exAnnouncement := by
      obtain ⟨ty, V, ev⟩ := x
      simp only at hx1
      subst hx1
      cases ev with
      | inl ev =>
        simp only [exReadsEvents, Option.some.injEq, Prod.mk.injEq] at hx2
        obtain ⟨rfl, rfl⟩ := hx2
        rfl
      | inr ev => simp [exReadsEvents] at hx2
    subst hx
    exact ⟨5, exHandled a, by decide⟩
  · intro vs hvs
    rw [exAnswers, List.mem_singleton] at hvs
    rw [hvs]
    exact exCaught _
  · intro tx htx vs hvs
    rw [exTransactions, List.mem_singleton] at htx
    subst htx
    have : vs = [.succeededOnChain, .succeededOnChain] := by
      simpa [exVote, exPollMeta] using hvs
    subst this
    obtain ⟨latest, sent, hh, _, hgot⟩ := exGot a ha
    obtain ⟨E, _, _, hE, _, _, _, _, _, hs⟩ := hh
    have hE' : E = exEnv := hE
    subst hE'
    have hs' : sent = exSends a := hs
    rw [hs', exSends_eq a ha] at hgot
    exact hgot _ (List.mem_singleton_self _)
  · intro vs hvs
    refine ⟨[], exProcess (exVote a), exVotesGenuine a ha, ⟨[exVote a], 50, 50, 0⟩, by
      rw [exTransactions]; exact List.mem_singleton_self _, ?_⟩
    have := exVotedAt a ha vs hvs
    rw [exSends_eq a ha, List.mem_singleton] at this
    rw [show exPollMeta.pollId = 1 from rfl, this]
    exact List.mem_singleton_self _

/-- the hypotheses of `C92_verified` hold, and so the message is verified -/
example : askVerifier exP (worldAfter exP exSetup (exPolled ++ exVoteTxs)) 12 [exMsg1] = some [(exMsg1.ccId, true)] :=
  C92_verified exP exSetup exPolled exVoteTxs (by unfold InOrder; decide +kernel) 12 exVerifier rfl exVerifier_ok exMsg1
    exWorkers exPollConfs exPollMeta _ exOpened exEvm exReads exReadsEvents (exBlocks exAnnouncement) exAuthentic 5
    exAnnouncement exAnnouncement (by decide) rfl ⟨rfl, rfl⟩ [5, 6]
    (by decide) (by decide) (by decide) (fun a ha => ⟨exCfg, 0, exOutcome a, [], exProcess (exVote a), exOperates a ha⟩)

/-! ### Signing -/

/-- what a worker's only handler does: it signs -/
def exSignOutcome (a : Addr) (l : Label) (e : Ampd.Event (Ampd.Abci Ampd.Any)) (o : Outcome) : Prop :=
  l = 0 ∧ o = Ampd.Signing.handle (fun x => (exReadsEvents.multisig x).bind (Ampd.Signing.readSigning Ampd.Signing.exReader))
    ⟨a, 18⟩ exSigner e

/-- a worker's signature -/
def exSignature (a : Addr) : Encoding.Bytes := List.replicate 64 a

/-- its transaction -/
def exSubmit (a : Addr) : Ampd.ExecTx := ⟨a, 18, .submitSignature 1 (exSignature a)⟩

set_option maxRecDepth 10000 in
/-- the hypotheses of `C92_proved` hold: the daemons of workers 5 and 7 sign, and the proof can be fetched -/
example : ∃ b payload, shownBatch (worldAfter exP exSetup (exAsked ++ exTxs2.drop 1)) 19 1 = some b ∧
    askProof exP (worldAfter exP exSetup (exAsked ++ exTxs2.drop 1)) 19 1 =
      .ok ⟨b.messageIds, b.data, .completed payload⟩ := by
  obtain ⟨digest, hann, hb, hl⟩ := exAnnounced
  have hread : ∀ p ∈ exCurrent.pubKeys, (Ampd.Signing.exReader.key p.2).isSome := by decide +kernel
  let ev : Multisig.Event := .signingStarted 1 (Prover.workerSetId exP.X exCurrent) exCurrent.pubKeys digest sui
  refine C92_proved exP exSetup exAsked (exTxs2.drop 1) 19 exProver svc .ecdsa rfl 2 3 (by decide +kernel) _ rfl
    exDistinct 20
    (exRecordsAt _ _ _ (by decide) (by unfold InOrder; decide +kernel) (by decide +kernel) (by decide)
      (by decide +kernel) (by decide +kernel)) 1 exCurrent exCurrent.pubKeys digest sui hann (by decide +kernel)
    (by decide +kernel) (fun _ _ => trivial) (show 10 ≤ u64Max by decide) ?_ [5, 7] (by decide) (by decide +kernel) hb
    Ampd.Signing.exReader rfl hread exReadsEvents (exBlocks (Ampd.announcedAny 18 (.inr ev))) 5 _ _
    (List.mem_singleton_self _) rfl ⟨rfl, rfl⟩ ?_
  · intro b hb
    have key : (shownBatch (worldAfter exP exSetup (exAsked ++ exTxs2.drop 1)) 19 1).all (fun b =>
      decide (1000 * (1 + b.data.commands.length + exCurrent.signers.length) + Prover.dataSize b.data < 2 ^ 31)) =
      true := by decide +kernel
    rw [hb] at key
    exact of_decide_eq_true key
  · intro a ha
    have hview : exReadsEvents.ShowsSigning (Ampd.announcedAny 18 (.inr ev)) 18 ev := ⟨rfl, rfl⟩
    have hpk : (a, Multisig.PublicKey.ecdsa (List.replicate 33 a)) ∈ exCurrent.pubKeys := by
      simp only [List.mem_cons, List.not_mem_nil, or_false] at ha
      rcases ha with rfl | rfl <;> decide
    have hk : Ampd.Signing.exReader.key (.ecdsa (List.replicate 33 a)) = some (List.replicate 33 a) := by
      simp only [List.mem_cons, List.not_mem_nil, or_false] at ha
      rcases ha with rfl | rfl <;> rfl
    have hsent : Ampd.Signing.handle (fun x => (exReadsEvents.multisig x).bind
        (Ampd.Signing.readSigning Ampd.Signing.exReader)) ⟨a, 18⟩ exSigner (.abci (Ampd.announcedAny 18 (.inr ev))) =
        ⟨[exSubmit a], .ok ()⟩ := by
      rw [handle_view hview]
      obtain ⟨h1, h2⟩ := Ampd.Signing.C77_submits Ampd.Signing.exReader ⟨a, 18⟩ exSigner 1
        (Prover.workerSetId exP.X exCurrent) exCurrent.pubKeys digest sui hb hl rfl hread (by decide) _ _ _ hpk hk
        (show _ = some (exSignature a) from rfl)
      have h3 := h2.mpr rfl
      unfold Outcome.succeeded at h3
      exact congrArg₂ Outcome.mk h1 h3
    have hgen : Ampd.Genuine (exBlocks (Ampd.announcedAny 18 (.inr ev))) (exSignOutcome a) exCfg [] (exProcess (exSubmit a)) :=
      exGenuine _ _ _ (fun _ => ⟨rfl, rfl⟩) (fun _ => ⟨rfl, rfl⟩) ⟨rfl, hsent.symm⟩
    refine ⟨exCfg, 0, exSignOutcome a, [], exProcess (exSubmit a), ?_, exSane _, hgen, ?_, ?_, ?_⟩
    · rintro x o hx ⟨_, rfl⟩ _
      exact ⟨exSigner, _, _, .ecdsa (exSignature a), rfl, hpk, hk, rfl, exValid _ a⟩
    · show 5 ∈ (Ampd.handlerOut (exBlocks _) [] { Ampd.pipeRun with flushed := false } 0).2
      rw [exGiven]; simp
    · intro sig hsig
      rw [exAnswers, List.mem_singleton] at hsig
      rw [show exProver.multisig = 18 from rfl] at hsig ⊢
      rw [hsig]
      exact exCaught _
    · intro tx htx sig hsig
      rw [exTransactions, List.mem_singleton] at htx
      subst htx
      have : sig = exSignature a := by
        simp only [exSubmit, List.mem_singleton, Ampd.ExecTx.mk.injEq, Ampd.TxMsg.submitSignature.injEq, true_and] at hsig
        exact hsig.2
      subst this
      simp only [List.mem_cons, List.not_mem_nil, or_false] at ha
      rcases ha with rfl | rfl
      · exact ⟨[], _, _, rfl, rfl, rfl, [], Or.inl ⟨rfl, by decide⟩⟩
      · exact ⟨[_], _, _, rfl, rfl, rfl, [], Or.inl ⟨rfl, by decide⟩⟩

end Amp.Chain
