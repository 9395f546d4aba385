import Verif.Chain.AskProps
import Verif.Chain.TrustExample
import Verif.Chain.ProofExample

/-!
# C89 in the concrete history
-/

namespace Amp.Chain

open Amp.Router (ChainName CCId Message)

theorem exVerifier_ok : exVerifier.Valid := by unfold VV.Config.Valid; decide

set_option maxRecDepth 10000 in
/-- the hypotheses of `C89_asked` hold: anyone can have the two messages verified -/
example : ∃ confs pm, pm.expiresAt = 14 ∧ ∀ m ∈ [exMsg1, exMsg2], ∃ cf ∈ confs,
    PollOpened exP (log exP exSetup (exTxs0 ++ [exTx 9 4 13 (.gateway (.verifyMessages [exMsg1, exMsg2]))])) 12 exVerifier
      m exWorkers confs pm cf := by
  have hst : ∀ m ∈ [exMsg1, exMsg2],
      VV.msgStatus exP.H (VV.stateAfter exP.H exVerifier (verifierCalls 12 (log exP exSetup exTxs0))) m =
        .ok .notVerified := by decide +kernel
  obtain ⟨_, confs, pm, _, _, _, h4, _, h6⟩ := C89_asked exP exSetup exTxs0 13 ⟨12, 14⟩ rfl exVerifier rfl exVerifier_ok
    (by decide +kernel) [exMsg1, exMsg2] (by decide) (by decide)
    (by
      intro m hm
      simp only [List.mem_cons, List.not_mem_nil, or_false] at hm
      rcases hm with rfl | rfl <;> exact ⟨_, rfl⟩) (by decide) (by decide +kernel) (by decide +kernel) exWorkers
    (by decide +kernel) (by decide) (by decide) (exTx 9 4 13 (.gateway (.verifyMessages [exMsg1, exMsg2]))) [] _ rfl rfl rfl
    (by decide) (by decide) ⟨exMsg1, List.mem_cons_self .., Or.inl (hst _ (List.mem_cons_self ..))⟩
  exact ⟨confs, pm, h4, fun m hm => h6 m hm (Or.inl (hst m hm))⟩

/-- a poll is open -/
def exPolled : List Tx := exTxs0 ++ [exTx 9 4 13 (.gateway (.verifyMessages [exMsg1, exMsg2]))]

/-- workers 5 and 6 send what their daemons tell them, the former along with something else; worker 7 lies -/
def exVoteTxs : List Tx := [
  ⟨5, [(18, [], .multisig (.registerPublicKey .ecdsa (List.replicate 33 50))),
    (12, [], .verifier (.vote 1 [.succeededOnChain, .succeededOnChain]))], ⟨5, 25000000000⟩, fun _ => false, 20⟩,
  exTx 7 5 12 (.verifier (.vote 1 [.notFound, .failedOnChain])),
  exTx 6 6 12 (.verifier (.vote 1 [.succeededOnChain, .succeededOnChain]))]

def exPollConfs : List VV.TxConfirmation :=
  [⟨"0xab".toList, 1, Prover.exAddress, sui, "0xs".toList, List.replicate 32 7⟩,
   ⟨"0xab".toList, 2, "0xd".toList, fantom, "0xs".toList, List.replicate 32 8⟩]

def exPollMeta : VV.PollMeta := ⟨1, eth, "0xgw".toList, 1, 14, [5, 6, 7]⟩

theorem pollOpened_of {P : Params} {l : List Entry} {V : Addr} {vc : VV.Config} {m : Message} {ws : List Registry.Worker}
    {confs : List VV.TxConfirmation} {pm : VV.PollMeta} {cf : VV.TxConfirmation} {ms : List Message}
    (h : (match l.getLast? with
      | some e => match e.act with
        | .verifier c r => decide (e.p.target = V ∧ c.msg = .verifyMessages ms ∧ c.workers = some ws ∧
            r.event = some (.messagesPollStarted confs pm))
        | _ => false
      | none => false) = true)
    (hm : m ∈ ms) (hinj : ∀ m' ∈ ms, m'.hash P.H.msg = m.hash P.H.msg → m' = m)
    (hst : VV.msgStatus P.H (VV.stateAfter P.H vc (verifierCalls V l.dropLast)) m = .ok .notVerified)
    (hcf : VV.confirmationOf m = .ok cf) : PollOpened P l V vc m ws confs pm cf := by
  split at h
  · rename_i e he
    split at h
    · rename_i c r hact
      obtain ⟨h1, h2, h3, h4⟩ := of_decide_eq_true h
      refine ⟨l.dropLast, e, [], c, r, ms, ?_, h1, hact, h2, hm, hinj, Or.inl hst, h3, h4, hcf⟩
      have := List.dropLast_append_getLast? e he
      exact this.symm
    · simp at h
  · simp at h

set_option maxRecDepth 10000 in
theorem exOpened : PollOpened exP (log exP exSetup exPolled) 12 exVerifier exMsg1 exWorkers exPollConfs exPollMeta
    ⟨"0xab".toList, 1, Prover.exAddress, sui, "0xs".toList, List.replicate 32 7⟩ :=
  pollOpened_of (ms := [exMsg1, exMsg2]) (by decide +kernel) (List.mem_cons_self ..) (by decide +kernel)
    (by decide +kernel) rfl

theorem exReads : exEvm.Reads 12 exPollConfs exPollMeta
    ⟨"0xab".toList, 1, Prover.exAddress, sui, "0xs".toList, List.replicate 32 7⟩ := ⟨_, _, rfl, rfl, rfl⟩

abbrev exSends (a : Addr) : List Ampd.ExecTx :=
  (Ampd.Evm.handleMessages Router.asciiLower some (Ampd.Evm.readMessagesPoll Router.asciiLower Ampd.Evm.exTrustReader)
    ⟨a, 12, .other eth⟩ exEnv (.abci (Ampd.announced 12 (.messagesPollStarted exPollConfs exPollMeta)))).sent

theorem exHandled (a : Addr) : exEvm.Handled 12 exPollConfs exPollMeta
    ⟨"0xab".toList, 1, Prover.exAddress, sui, "0xs".toList, List.replicate 32 7⟩ a 5 (exSends a) := by
  refine ⟨exEnv, _, _, rfl, rfl, rfl, rfl, ?_, ⟨100, rfl, by decide⟩, rfl⟩
  refine ⟨?_, ?_, fun _ _ => Iff.rfl, exReceipt, 80, rfl, rfl, ⟨100, rfl, by decide⟩, rfl, _,
      List.mem_cons_self .., rfl, rfl, rfl, sui, rfl, rfl⟩
  · constructor <;> intro x hx <;> (simp [exEnv] at hx; try (subst hx; decide))
  · intro h r hr
    simp only [exEnv, Option.some.injEq] at hr
    split at hr
    · simp only [Option.some.injEq] at hr
      subst hr
      rename_i hh
      subst hh
      exact ⟨rfl, by unfold Ampd.Evm.DistinctLogs exReceipt; simp⟩
    · simp at hr

theorem exSends_eq : ∀ a ∈ [5, 6], exSends a = [⟨a, 12, .vote 1 [.succeededOnChain, .succeededOnChain]⟩] := by
  decide +kernel

set_option maxRecDepth 10000 in
/-- what `VotedAt` says of the history -/
theorem exVotedAt : ∀ a ∈ [5, 6], ∀ vs, VotedAt (log exP exSetup (exPolled ++ exVoteTxs)) 12 a 1 vs →
    (⟨a, 12, .vote 1 vs⟩ : Ampd.ExecTx) ∈ exSends a := by
  have key : (log exP exSetup (exPolled ++ exVoteTxs)).all (fun e => decide (e.p.target ≠ 12) || match e.p.msg with
      | .verifier (.vote 1 vs) => decide (e.p.sender = 7 ∨ vs = [.succeededOnChain, .succeededOnChain])
      | _ => true) = true := by decide +kernel
  rintro a ha vs ⟨e, he, h1, h2, h3⟩
  have h := List.all_eq_true.mp key e he
  rw [h1, h3] at h
  simp only [ne_eq, not_true_eq_false, decide_false, Bool.false_or, decide_eq_true_eq] at h
  rw [exSends_eq a ha]
  rcases h with h | rfl
  · rw [h2] at h
    subst h
    simp at ha
  · exact List.mem_cons_self ..

set_option maxRecDepth 10000 in
theorem exGot : ∀ a ∈ [5, 6], ∃ latest sent, exEvm.Handled 12 exPollConfs exPollMeta
      ⟨"0xab".toList, 1, Prover.exAddress, sui, "0xs".toList, List.replicate 32 7⟩ a latest sent ∧
      latest < exPollMeta.expiresAt ∧
      ∀ t ∈ sent, GotBefore exP exSetup exPolled exVoteTxs t.sender t.contract (daemonMsg t.msg) exPollMeta.expiresAt := by
  intro a ha
  refine ⟨5, _, exHandled a, by decide, ?_⟩
  intro t ht
  rw [exSends_eq a ha] at ht
  simp only [List.mem_cons, List.not_mem_nil, or_false] at ht ha
  subst ht
  rcases ha with rfl | rfl
  · refine ⟨[], _, _, rfl, ⟨rfl, rfl, [], Or.inr ⟨List.mem_of_getElem? (i := 1) rfl, ?_⟩⟩, by decide⟩
    have key : (answer (exec exP (worldAfter exP exSetup (exPolled ++ [])) (exVoteTxs.head (by decide)))).isSome = true := by
      decide +kernel
    obtain ⟨y, hy⟩ := Option.isSome_iff_exists.mp key
    refine ⟨y, ?_⟩
    unfold answer at hy
    split at hy
    · rename_i z hz
      simp only [Option.some.injEq] at hy
      rw [← hy]
      exact hz
    · simp at hy
  · exact ⟨[_, _], _, _, rfl, ⟨rfl, rfl, [], Or.inl ⟨rfl, by decide⟩⟩, by decide⟩

/-- the hypotheses of `C89_verified` hold, and so the message is verified -/
example : askVerifier exP (worldAfter exP exSetup (exPolled ++ exVoteTxs)) 12 [exMsg1] = some [(exMsg1.ccId, true)] :=
  C89_verified exP exSetup exPolled exVoteTxs (by unfold InOrder; decide +kernel) 12 exVerifier rfl exVerifier_ok exMsg1
    exWorkers exPollConfs exPollMeta _ exOpened exEvm exReads [5, 6] (by decide) (by decide) (by decide) exGot
    (fun a ha vs h => ⟨5, _, exHandled a, exVotedAt a ha vs h⟩)

set_option maxRecDepth 10000 in
/-- the hypotheses of `C89_delivered` hold: whoever asks has the message delivered to the gateway of `sui` -/
example : Arrived exP exSetup (exPolled ++ exVoteTxs ++ [exTx 9 7 13 (.gateway (.routeMessages [exMsg1]))]) 14 ⟨1, 1, 15⟩
    exMsg1 :=
  (C89_delivered exP exSetup exPolled exVoteTxs (by unfold InOrder; decide +kernel) 14 ⟨1, 1, 15⟩ rfl 13 ⟨12, 14⟩ rfl rfl
    exVerifier rfl exVerifier_ok exMsg1 exWorkers exPollConfs exPollMeta _ exOpened exEvm exReads [5, 6] (by decide) (by decide)
    (by decide) exGot (fun a ha vs h => ⟨5, _, exHandled a, exVotedAt a ha vs h⟩) ⟨eth, 13, 0⟩ (by decide +kernel) rfl rfl
    (Or.inl ⟨⟨sui, 17, 0⟩, ⟨16, 14⟩, by decide +kernel, rfl, rfl, rfl⟩) _ ⟨_, _, rfl, rfl⟩ rfl (by decide)).2

/-- the key manager signs with the key it is asked for -/
def exSigner : Ampd.Signing.Env := ⟨fun _ _ k => some (List.replicate 64 (k.headD 0)), true⟩

set_option maxRecDepth 10000 in
/-- the hypotheses of `C89_proved` hold: the daemons of workers 5 and 7 sign, and the proof can be fetched -/
example : ∃ b payload, shownBatch (worldAfter exP exSetup (exAsked ++ exTxs2.drop 1)) 19 1 = some b ∧
    askProof exP (worldAfter exP exSetup (exAsked ++ exTxs2.drop 1)) 19 1 =
      .ok ⟨b.messageIds, b.data, .completed payload⟩ := by
  obtain ⟨digest, hann, hb, hl⟩ := exAnnounced
  have hread : ∀ p ∈ exCurrent.pubKeys, (Ampd.Signing.exReader.key p.2).isSome := by decide +kernel
  refine C89_proved exP exSetup exAsked (exTxs2.drop 1) 19 exProver svc .ecdsa rfl 2 3 (by decide +kernel) _ rfl ?_ 20
    (exRecordsAt _ _ _ (by decide) (by unfold InOrder; decide +kernel) (by decide +kernel) (by decide)
      (by decide +kernel) (by decide +kernel)) 1 exCurrent exCurrent.pubKeys digest sui hann (by decide +kernel)
    (by decide +kernel) (fun _ _ => trivial) (show 10 ≤ u64Max by decide) ?_ [5, 7] (by decide) (by decide +kernel) hb
    Ampd.Signing.exReader rfl hread (fun _ => exSigner) ?_ ?_
  · exact exDistinct
  · intro b hb
    have key : (shownBatch (worldAfter exP exSetup (exAsked ++ exTxs2.drop 1)) 19 1).all (fun b =>
      decide (1000 * (1 + b.data.commands.length + exCurrent.signers.length) + Prover.dataSize b.data < 2 ^ 31)) =
      true := by decide +kernel
    rw [hb] at key
    exact of_decide_eq_true key
  · intro a ha
    simp only [List.mem_cons, List.not_mem_nil, or_false] at ha
    rcases ha with rfl | rfl
    · exact ⟨.ecdsa (List.replicate 33 5), _, .ecdsa (List.replicate 64 5), by decide, rfl, rfl, exValid _ 5⟩
    · exact ⟨.ecdsa (List.replicate 33 7), _, .ecdsa (List.replicate 64 7), by decide, rfl, rfl, exValid _ 7⟩
  · intro a ha t ht
    have hsub := fun pk k sig => Ampd.Signing.C77_submits Ampd.Signing.exReader ⟨a, 18⟩ exSigner 1
      (Prover.workerSetId exP.X exCurrent) exCurrent.pubKeys digest sui hb hl rfl hread (by decide) pk k sig
    simp only [List.mem_cons, List.not_mem_nil, or_false] at ha
    rcases ha with rfl | rfl
    · have h := (hsub (.ecdsa (List.replicate 33 5)) _ _ (by decide) rfl rfl).1
      rw [show exProver.multisig = 18 from rfl, h] at ht
      simp only [List.mem_cons, List.not_mem_nil, or_false] at ht
      subst ht
      exact ⟨[], _, _, rfl, rfl, rfl, [], Or.inl ⟨rfl, by decide⟩⟩
    · have h := (hsub (.ecdsa (List.replicate 33 7)) _ _ (by decide) rfl rfl).1
      rw [show exProver.multisig = 18 from rfl, h] at ht
      simp only [List.mem_cons, List.not_mem_nil, or_false] at ht
      subst ht
      exact ⟨[_], _, _, rfl, rfl, rfl, [], Or.inl ⟨rfl, by decide⟩⟩

end Amp.Chain
