import Verif.Wire.PollLogProps
import Verif.Wire.AskedExample

/-! # Concrete cases for C107: a poll that was ended -/

namespace Amp.Wire

open Amp.Chain (Tx Entry exP exSetup exTxs0 exTx exMsg1 eth)

/-- two workers vote, and somebody ends the poll -/
def exEndedTxs (v : Std.Vote) : List Tx := exVotesTxs v ++ [exTx 9 14 12 (.verifier (.endPoll 1))]

def exEnded (v : Std.Vote) : List TextTx := (exEndedTxs v).map (written exTexture)

theorem exEnded_plain : textWorldAfter exTexture exP exSetup (exEnded .succeededOnChain) =
      Chain.worldAfter exP exSetup (exEndedTxs .succeededOnChain) ∧
    textLog exTexture exP exSetup (exEnded .succeededOnChain) = Chain.log exP exSetup (exEndedTxs .succeededOnChain) :=
  exWritten exP_bytes (by decide +kernel) (by decide +kernel) (by decide +kernel)

theorem exEnded_range : ∀ t ∈ exEnded .succeededOnChain, InRange t := by
  have h : ∀ t ∈ exEnded .succeededOnChain, t.block.height ≤ u64Max ∧ t.block.time ≤ u64Max ∧
      ∀ m ∈ t.msgs, ∀ c ∈ m.2.1, c.2 ≤ u128Max := by decide +kernel
  exact fun t ht => ⟨(h t ht).1, (h t ht).2.1, (h t ht).2.2⟩

/-- all that the verifier was asked to verify -/
theorem exEnded_asked : ∀ m, AskedToVerify (textLog exTexture exP exSetup (exEnded .succeededOnChain)) 12 m → m = exMsg1 := by
  rw [exEnded_plain.2]
  have h : ((Chain.log exP exSetup (exEndedTxs .succeededOnChain)).all (fun e => match e.p.msg with
      | .verifier (.verifyMessages ms) => ms.all (fun m => decide (m = exMsg1))
      | _ => true)) = true := by decide +kernel
  rintro m ⟨e, he, -, ms, hm, hmem⟩
  have := List.all_eq_true.mp h e he
  rw [hm] at this
  exact of_decide_eq_true (List.all_eq_true.mp this m hmem)

theorem exMsg1_canonical : Chain.CanonicalId (fun _ => True) exMsg1.ccId.id :=
  ⟨"0xab".toList, 1, trivial, by decide, by decide, by decide, by decide⟩

/-- Who reads the events learns that the message is verified. -/
example : Chain.askVerifier exP (textWorldAfter exTexture exP exSetup (exEnded .succeededOnChain)) 12 [exMsg1] =
    some [(exMsg1.ccId, true)] := by
  obtain ⟨b, h1, -, h2⟩ := C107_verifier ex_sound exP_bytes exFounded (exEnded .succeededOnChain) exEnded_range
    (by unfold Chain.InOrder; decide +kernel) 12 _ rfl _ rfl exMsg1 rfl exMsg1_canonical
    (fun m' h => by rw [exEnded_asked m' h]; exact ⟨exMsg1_canonical, fun _ => rfl⟩)
    ⟨"0xab".toList, 1, exMsg1.destinationAddress, exMsg1.destinationChain, exMsg1.sourceAddress, exMsg1.payloadHash⟩ (by decide)
  rw [h1]
  rw [exEnded_plain.2] at h2
  rw [(h2 1 0 [some .succeededOnChain] (by decide +kernel) (by decide +kernel)).mpr rfl]

def exPolledSet : Std.Operators := ⟨[([1, 171], 10), ([2], 5)], 258⟩

theorem exPolledSet_fits : OperatorsFit exPolledSet := ⟨by unfold IsBytes; decide, by decide, by decide⟩

/-- a poll about a worker set that is ended -/
def exSetEndedTxs : List Tx := exTxs0 ++ [exTx 9 4 12 (.verifier (.verifyWorkerSet "0xab:1".toList exPolledSet)),
  exTx 5 5 12 (.verifier (.vote 1 [.succeededOnChain])), exTx 6 6 12 (.verifier (.vote 1 [.succeededOnChain])),
  exTx 9 14 12 (.verifier (.endPoll 1))]

def exSetEnded : List TextTx := exSetEndedTxs.map (written exTexture)

theorem exSetEnded_log : textLog exTexture exHashP exSetup exSetEnded = Chain.log exHashP exSetup exSetEndedTxs :=
  (exWritten poly_bytes (by decide +kernel) (by decide +kernel) (by decide +kernel)).2

theorem exSetEnded_range : ∀ t ∈ exSetEnded, InRange t := by
  have h : ∀ t ∈ exSetEnded, t.block.height ≤ u64Max ∧ t.block.time ≤ u64Max ∧
      ∀ m ∈ t.msgs, ∀ c ∈ m.2.1, c.2 ≤ u128Max := by decide +kernel
  exact fun t ht => ⟨(h t ht).1, (h t ht).2.1, (h t ht).2.2⟩

/-- all that the verifier was asked to confirm -/
theorem exSetEnded_asked : ∀ o, AskedToConfirm (textLog exTexture exHashP exSetup exSetEnded) 12 o → o = exPolledSet := by
  rw [exSetEnded_log]
  have h : ((Chain.log exHashP exSetup exSetEndedTxs).all (fun e => match e.p.msg with
      | .verifier (.verifyWorkerSet _ o) => decide (o = exPolledSet)
      | _ => true)) = true := by decide +kernel
  rintro o ⟨e, he, -, mid, hm⟩
  have := List.all_eq_true.mp h e he
  rw [hm] at this
  exact of_decide_eq_true this

/-- Who reads the events learns that the worker set is verified. -/
example : Chain.askSet exHashP (textWorldAfter exTexture exHashP exSetup exSetEnded) 12 exPolledSet = .ok true := by
  rcases C107_worker_set ex_sound exHashed exFounded exSetEnded exSetEnded_range
    (by unfold Chain.InOrder; decide +kernel) 12 _ rfl _ rfl exPolledSet exPolledSet_fits with ⟨b, h1, -, h2⟩ | ⟨o, h1, h2, -⟩
  · rw [h1]
    rw [exSetEnded_log] at h2
    rw [(h2 1 [some .succeededOnChain] (by decide +kernel) (by decide +kernel)).mpr rfl]
  · exact absurd (exSetEnded_asked o h1) h2

/-- a verifier is asked about a message, two workers vote, the poll is ended -/
def exSpelled (m : Router.Message) : List VV.Call := [⟨100, 9, some VV.exWorkers, .verifyMessages [m]⟩,
  ⟨101, 1, none, .vote 1 [.succeededOnChain]⟩, ⟨101, 2, none, .vote 1 [.succeededOnChain]⟩, ⟨110, 9, none, .endPoll 1⟩]

/-- the same event of the source chain, with its number spelled in another way -/
def exSpelling : Router.Message := { VV.exMsg with ccId := ⟨eth, "0xab:01".toList⟩ }

/-- C107: why `C107_verifier` is about ids in canonical spelling: the events of a verifier do not tell how the id of a message was
spelled. -/
theorem C107_id_counterexample :
    (VV.history VV.exH VV.exCfg (exSpelled VV.exMsg)).map (·.2.event) =
      (VV.history VV.exH VV.exCfg (exSpelled exSpelling)).map (·.2.event) ∧
    (VV.isVerified VV.exH (VV.stateAfter VV.exH VV.exCfg (exSpelled VV.exMsg)) [VV.exMsg]).toOption =
      some [(VV.exMsg.ccId, true)] ∧
    (VV.isVerified VV.exH (VV.stateAfter VV.exH VV.exCfg (exSpelled exSpelling)) [VV.exMsg]).toOption =
      some [(VV.exMsg.ccId, false)] := by
  decide +kernel

end Amp.Wire
