import Verif.Chain.ProofCompleted
import Verif.Chain.ProverExample

/-!
# C82 in the concrete history
-/

namespace Amp.Chain

open Amp.Router (ChainName CCId Message)

/-- two messages were delivered to the gateway of `sui` -/
def exDelivered : List Tx := exTxs0 ++ exTxs1

def exProver : Prover.Config := ⟨17, 18, 10, 16, 10, ⟨2, 3⟩, sui, 1, .bcs⟩

def exCurrent : Multisig.WorkerSet := ⟨[5, 6, 7].map (fun a => (a, ⟨a, 1, .ecdsa (List.replicate 33 a)⟩)), 2, 3⟩

theorem exDistinct' : SetsDistinctAt exP (log exP exSetup exDelivered) 18 := by
  refine setsDistinctAt_of (sets := [exCurrent]) ?_ ?_
  · decide +kernel
  · decide +kernel

theorem mayAsk_of {w : World} {M Q : Addr} (h : (match w M with
    | some (.multisig s) => decide (s.authorized Q = some ())
    | _ => false) = true) : MayAsk w M Q := by
  unfold MayAsk
  split at h
  · rename_i s hs
    rw [hs]
    exact of_decide_eq_true h
  · simp at h

theorem exReady (ids : List CCId) (msgs : List Message)
    (h : askGateway (worldAfter exP exSetup exDelivered) 17 ids = .ok msgs)
    (hd : ∀ m ∈ msgs, m.destinationChain = sui) :
    Ready (worldAfter exP exSetup exDelivered) 19 exProver ids msgs exCurrent := by
  exact ⟨h, hd, by decide +kernel, mayAsk_of (by decide +kernel)⟩

/-- the active workers -/
def exWorkers : List Registry.Worker := [5, 6, 7].map (fun a => ⟨a, .bonded 10, .authorized, svc⟩)

theorem exBuildable : Buildable exP (worldAfter exP exSetup exDelivered) 19 exProver svc .ecdsa 9 [exMsg1, exMsg3]
    exCurrent exWorkers := by
  refine ⟨by decide +kernel, by decide, ?_, ?_, ?_, show 10 ≤ u64Max by decide, by decide +kernel⟩
  · intro x hx
    have key : exWorkers.all (fun x => (answer (askKey (worldAfter exP exSetup exDelivered) 18 .ecdsa
      x.address)).isSome) = true := by decide +kernel
    have := List.all_eq_true.mp key x hx
    change ∃ k, askKey (worldAfter exP exSetup exDelivered) 18 .ecdsa x.address = .ok k
    cases h : askKey (worldAfter exP exSetup exDelivered) 18 .ecdsa x.address with
    | error e => rw [h] at this; simp [answer] at this
    | ok k => exact ⟨k, rfl⟩
  · intro m hm
    simp only [List.mem_cons, List.not_mem_nil, or_false] at hm
    rcases hm with rfl | rfl <;> exact ⟨_, rfl, by decide +kernel⟩
  · intro new _ _
    refine ⟨?_, fun _ _ => trivial⟩
    intro n hn
    have : pendingSet (worldAfter exP exSetup exDelivered) 19 = none := by decide +kernel
    rw [this] at hn
    simp at hn

/-- the hypotheses of `C82_requested` hold: anyone can have the two messages signed -/
example : ∃ b, Starts exP (worldAfter exP exSetup exDelivered)
    (exTx 9 9 19 (.prover (.constructProof [exMsg1.ccId, exMsg3.ccId]))) 19 exProver exCurrent b := by
  obtain ⟨_, b, _, _, h⟩ := C82_requested exP exSetup exDelivered 19 exProver svc .ecdsa rfl 2 3 (by decide +kernel) _ rfl
    exDistinct' (by decide +kernel) (exTx 9 9 19 (.prover (.constructProof [exMsg1.ccId, exMsg3.ccId])))
    [exMsg1.ccId, exMsg3.ccId] ⟨⟨_, rfl⟩, rfl, by decide⟩ [exMsg1, exMsg3] exCurrent
    (exReady _ _ (by decide +kernel) (by decide)) (by decide +kernel) exWorkers exBuildable
  exact ⟨b, h⟩

set_option maxRecDepth 10000 in
theorem exAllowed : MayAsk (worldAfter exP exSetup exTxs) 18 19 := mayAsk_of (by decide +kernel)

set_option maxRecDepth 10000 in
/-- the hypotheses of `C82_again` hold at the end of the history: the messages can be signed again -/
example : ∃ b, Starts exP (worldAfter exP exSetup exTxs)
    (exTx 9 21 19 (.prover (.constructProof [exMsg1.ccId, exMsg3.ccId]))) 19 exProver exCurrent b := by
  have hb : (storedBatch (worldAfter exP exSetup exTxs) 19
      (Prover.batchId exP.X [exMsg1.ccId, exMsg3.ccId] none)).isSome = true := by decide +kernel
  obtain ⟨b, hb⟩ := Option.isSome_iff_exists.mp hb
  have hr : Ready (worldAfter exP exSetup exTxs) 19 exProver [exMsg1.ccId, exMsg3.ccId] [exMsg1, exMsg3] exCurrent :=
    ⟨by decide +kernel, by intro m hm; simp only [List.mem_cons, List.not_mem_nil, or_false] at hm;
                           rcases hm with rfl | rfl <;> rfl, by decide +kernel, exAllowed⟩
  exact ⟨b, C82_again exP exSetup exTxs 19 exProver svc .ecdsa rfl _ rfl exDistinct
    (by decide +kernel) _ [exMsg1.ccId, exMsg3.ccId] ⟨⟨_, rfl⟩, rfl, by decide⟩ [exMsg1, exMsg3] exCurrent hr b hb⟩

/-- worker 8 joins, without a key -/
def exKeyless : List Tx := exDelivered ++ [
  exTx 8 9 10 (.registry (.bondWorker svc)) [("axl".toList, 10)],
  exTx 8 9 10 (.registry (.declareChainSupport svc [sui])),
  exTx 1 9 10 (.registry (.authorizeWorkers [8] svc))]

/-- the hypothesis about keys is needed: one active worker without a key is enough for no proof of new messages to be
made, although no rotation is due -/
example : (answer (exec exP (worldAfter exP exSetup exDelivered)
      (exTx 9 9 19 (.prover (.constructProof [exMsg1.ccId, exMsg3.ccId]))))).isSome = true ∧
    (answer (exec exP (worldAfter exP exSetup exKeyless)
      (exTx 9 9 19 (.prover (.constructProof [exMsg1.ccId, exMsg3.ccId]))))).isNone = true ∧
    (answer (exec exP (worldAfter exP exSetup (exKeyless ++ [
        exTx 8 9 18 (.multisig (.registerPublicKey .ecdsa (List.replicate 33 8)))]))
      (exTx 9 9 19 (.prover (.constructProof [exMsg1.ccId, exMsg3.ccId]))))).isSome = true := by
  refine ⟨by decide +kernel, by decide +kernel, by decide +kernel⟩

/-- an entry that announces session 1 for the worker set -/
def exAnnounces (e : Entry) : Option Encoding.Bytes :=
  match e.p.target, e.act with
  | 18, .multisig _ r => match r.events with
    | [.signingStarted 1 wid keys digest chain] =>
      if wid = Prover.workerSetId exP.X exCurrent ∧ keys = exCurrent.pubKeys ∧ chain = sui then some digest else none
    | _ => none
  | _, _ => none

theorem exAnnounced : ∃ digest, AnnouncedAt (log exP exSetup exAsked) 18 1 (Prover.workerSetId exP.X exCurrent)
    exCurrent.pubKeys digest sui ∧ IsBytes digest ∧ digest.length = 32 := by
  have key : (log exP exSetup exAsked).any (fun e => (exAnnounces e).any (fun b =>
    b.all (fun x => decide (x < 256)) && b.length == 32)) = true := by decide +kernel
  obtain ⟨e, he, h⟩ := List.any_eq_true.mp key
  rw [Option.any_eq_true] at h
  obtain ⟨digest, h, hb⟩ := h
  unfold exAnnounces at h
  split at h
  · rename_i c r ht ha
    split at h
    · rename_i wid keys dg chain hev
      split at h
      · rename_i hc
        obtain ⟨rfl, rfl, rfl⟩ := hc
        simp only [Option.some.injEq] at h
        subst h
        rw [Bool.and_eq_true, List.all_eq_true, beq_iff_eq] at hb
        exact ⟨dg, ⟨e, he, c, r, ht, ha, by rw [hev]; exact List.mem_singleton_self _⟩,
          fun x hx => of_decide_eq_true (hb.1 x hx), hb.2⟩
      · simp at h
    · simp at h
  · simp at h

theorem exValid (digest : Encoding.Bytes) (a : Addr) :
    Multisig.Valid exP.C digest (.ecdsa (List.replicate 33 a)) (.ecdsa (List.replicate 64 a)) :=
  ⟨by simp, by simp [exP, Multisig.exCrypto, List.replicate]⟩

/-- the hypotheses of `C82_completed` hold: workers 5 and 7 sign, and the proof can be fetched -/
example : ∃ b payload, shownBatch (worldAfter exP exSetup (exAsked ++ exTxs2.drop 1)) 19 1 = some b ∧
    askProof exP (worldAfter exP exSetup (exAsked ++ exTxs2.drop 1)) 19 1 =
      .ok ⟨b.messageIds, b.data, .completed payload⟩ := by
  obtain ⟨digest, hann, _⟩ := exAnnounced
  refine C82_completed exP exSetup exAsked (exTxs2.drop 1) 19 exProver svc .ecdsa rfl 2 3 (by decide +kernel) _ rfl ?_ 20
    (exRecordsAt _ _ _ (by decide) (by unfold InOrder; decide +kernel) (by decide +kernel) (by decide)
      (by decide +kernel) (by decide +kernel)) 1 exCurrent exCurrent.pubKeys digest sui hann (by decide +kernel)
    (by decide +kernel) (fun _ _ => trivial) (show 10 ≤ u64Max by decide) ?_ [5, 7] (by decide) (by decide +kernel) ?_
  · exact exDistinct
  · intro b hb
    have key : (shownBatch (worldAfter exP exSetup (exAsked ++ exTxs2.drop 1)) 19 1).all (fun b =>
      decide (1000 * (1 + b.data.commands.length + exCurrent.signers.length) + Prover.dataSize b.data < 2 ^ 31)) =
      true := by decide +kernel
    rw [hb] at key
    exact of_decide_eq_true key
  · intro a ha
    simp only [List.mem_cons, List.not_mem_nil, or_false] at ha
    rcases ha with rfl | rfl
    · exact ⟨.ecdsa (List.replicate 33 5), .ecdsa (List.replicate 64 5), by decide, exValid _ 5, [],
        _, _, rfl, rfl, rfl, _, Or.inl ⟨rfl, by decide⟩⟩
    · exact ⟨.ecdsa (List.replicate 33 7), .ecdsa (List.replicate 64 7), by decide, exValid _ 7, [_],
        _, _, rfl, rfl, rfl, _, Or.inl ⟨rfl, by decide⟩⟩

end Amp.Chain
