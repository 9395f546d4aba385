import Verif.Chain.ProgressProps
import Verif.Chain.Example

/-!
# The hypotheses of C80 hold in a concrete history
-/

namespace Amp.Chain

open Amp.Router (ChainName CCId Message)

/-- the history of `exTxs` until two workers have voted -/
def exVoted : List Tx := exTxs0 ++ exTxs1.take 4

def exVc : VV.Config := ⟨10, svc, "0xgw".toList, ⟨2, 3⟩, 10, 1, eth, 11⟩
def exGc : Gateway.Config := ⟨12, 14⟩
def exRc : Router.Config := ⟨1, 1, 15⟩

def exActive : List Registry.Worker :=
  [⟨5, .bonded 10, .authorized, svc⟩, ⟨6, .bonded 10, .authorized, svc⟩, ⟨7, .bonded 10, .authorized, svc⟩]

/-- the confirmations that the poll asks for -/
def exConfs : List VV.TxConfirmation :=
  [⟨"0xab".toList, 1, Prover.exAddress, sui, "0xs".toList, List.replicate 32 7⟩,
   ⟨"0xab".toList, 2, "0xd".toList, fantom, "0xs".toList, List.replicate 32 8⟩]

def exMeta : VV.PollMeta := ⟨1, eth, "0xgw".toList, 1, 14, [5, 6, 7]⟩

/-- this entry is the call that opened the poll -/
def exOpens (e : Entry) : Bool :=
  e.p.target = 12 &&
  match e.act with
  | .verifier c r => c.msg = .verifyMessages [exMsg1, exMsg2] && c.workers = some exActive &&
      r.event = some (.messagesPollStarted exConfs exMeta)
  | _ => false

/-- this call is a vote of `a` -/
def exVotes (a : Addr) (x : VV.Call × VV.Resp) : Bool :=
  x.1.sender = a && x.1.msg = .vote 1 [.succeededOnChain, .succeededOnChain] && decide (x.1.height < 14)

theorem exVoted_mem (a : Addr) (i : Nat) (h : i < 2)
    (hk : ((VV.history exP.H exVc (verifierCalls 12 (log exP exSetup exVoted))).any (exVotes a)) = true) :
    VV.VotedFor (VV.history exP.H exVc (verifierCalls 12 (log exP exSetup exVoted))) a 1 i .succeededOnChain 14 := by
  obtain ⟨x, hx, hv⟩ := List.any_eq_true.mp hk
  simp only [exVotes, Bool.and_eq_true, decide_eq_true_eq] at hv
  obtain ⟨⟨h1, h2⟩, h3⟩ := hv
  refine ⟨x.1, x.2, _, hx, h1, h2, ?_, h3⟩
  match i, h with
  | 0, _ => rfl
  | 1, _ => rfl

theorem exConfirmed : Confirmed exP (log exP exSetup exVoted) 12 exVc exMsg1 := by
  have key : ((log exP exSetup exVoted)[17]?).any exOpens = true := by decide +kernel
  have hst : VV.msgStatus exP.H (VV.stateAfter exP.H exVc (verifierCalls 12 ((log exP exSetup exVoted).take 17)))
      exMsg1 = .ok .notVerified := by decide +kernel
  have h5 : ((VV.history exP.H exVc (verifierCalls 12 (log exP exSetup exVoted))).any (exVotes 5)) = true := by
    decide +kernel
  have h6 : ((VV.history exP.H exVc (verifierCalls 12 (log exP exSetup exVoted))).any (exVotes 6)) = true := by
    decide +kernel
  cases he : (log exP exSetup exVoted)[17]? with
  | none => rw [he] at key; simp at key
  | some e =>
    rw [he] at key
    simp only [Option.any_some, exOpens, Bool.and_eq_true, decide_eq_true_eq] at key
    obtain ⟨ht, hk⟩ := key
    cases ha : e.act with
    | verifier c r =>
      rw [ha] at hk
      simp only [Bool.and_eq_true, decide_eq_true_eq] at hk
      obtain ⟨⟨k1, k2⟩, k3⟩ := hk
      refine ⟨(log exP exSetup exVoted).take 17, e, (log exP exSetup exVoted).drop 18, c, r, _, _, _, _,
        exConfs[0], ?_, ht, ha, k1, List.mem_cons_self .., ?_, .inl hst, k2, k3, by decide +kernel, ?_⟩
      · obtain ⟨hlt, rfl⟩ := List.getElem?_eq_some_iff.mp he
        rw [← List.drop_eq_getElem_cons hlt, List.take_append_drop]
      · intro m' hm'
        simp only [List.mem_cons, List.not_mem_nil, or_false] at hm'
        rcases hm' with rfl | rfl
        · intro _; rfl
        · intro h
          exact absurd h (by decide +kernel)
      · intro i hi
        have h2 : i < 2 := by
          obtain ⟨h, _⟩ := List.getElem?_eq_some_iff.mp hi
          simpa [exConfs] using h
        refine ⟨[5, 6], by decide, ?_, by decide⟩
        intro a ha
        simp only [List.mem_cons, List.not_mem_nil, or_false] at ha
        rcases ha with rfl | rfl
        · exact ⟨⟨_, List.mem_of_getElem? (i := 0) rfl, rfl⟩, exVoted_mem 5 i h2 h5⟩
        · exact ⟨⟨_, List.mem_of_getElem? (i := 1) rfl, rfl⟩, exVoted_mem 6 i h2 h6⟩
    | _ => rw [ha] at hk; simp at hk

theorem exInOrder : InOrder exVoted := by unfold InOrder; decide

theorem exVc_valid : exVc.Valid := by unfold VV.Config.Valid; decide

/-- C80_confirmed_verified applies to the history -/
example : askVerifier exP (worldAfter exP exSetup exVoted) 12 [exMsg1] = some [(exMsg1.ccId, true)] :=
  C80_confirmed_verified exP exSetup exVoted exInOrder 12 exVc rfl exVc_valid exMsg1 exConfirmed

/-- what the router says about `eth` and `sui` -/
def exEpEth : Router.ChainEndpoint := ⟨eth, 13, 0⟩
def exEpSui : Router.ChainEndpoint := ⟨sui, 17, 0⟩

theorem exInfoEth : chainInfo (worldAfter exP exSetup exVoted) 14 eth = some exEpEth := by decide +kernel
theorem exInfoSui : chainInfo (worldAfter exP exSetup exVoted) 14 sui = some exEpSui := by decide +kernel
theorem exInfoFantom : chainInfo (worldAfter exP exSetup exVoted) 14 fantom = none := by decide +kernel

theorem exOpenSui : Open exSetup (worldAfter exP exSetup exVoted) 14 exRc sui :=
  .inl ⟨exEpSui, ⟨16, 14⟩, exInfoSui, rfl, rfl, rfl⟩

theorem exOpenFantom : Open exSetup (worldAfter exP exSetup exVoted) 14 exRc fantom :=
  .inr ⟨exInfoFantom, ⟨2, 14⟩, rfl, rfl⟩

/-- C80_confirmed_delivered applies: anyone routes the message and it arrives -/
example : Arrived exP exSetup (exVoted ++ [exTx 9 7 13 (.gateway (.routeMessages [exMsg1]))]) 14 exRc exMsg1 :=
  (C80_confirmed_delivered exP exSetup exVoted exInOrder 14 exRc rfl 13 exGc rfl rfl exVc rfl exVc_valid exMsg1
    exConfirmed exEpEth exInfoEth rfl rfl exOpenSui _ ⟨_, _, rfl, rfl⟩ rfl (by decide)).2

/-- a message nobody has seen -/
def exMsg4 : Message := ⟨⟨eth, "0xff:9".toList⟩, "0xs".toList, sui, Prover.exAddress, List.replicate 32 1⟩

def exBatch : List Message := [exMsg1, exMsg4, exMsg2]

/-- C80_route_delivers applies: of a batch, the two verified messages arrive, one at the gateway of `sui` and one
at the nexus module; the third message does no harm. -/
example : ∀ m ∈ exBatch, askVerifier exP (worldAfter exP exSetup exVoted) 12 [m] = some [(m.ccId, true)] →
    Arrived exP exSetup (exVoted ++ [exTx 9 7 13 (.gateway (.routeMessages exBatch))]) 14 exRc m := by
  refine (C80_route_delivers exP exSetup exVoted 14 exRc rfl 13 exGc exVc rfl rfl rfl eth exEpEth exInfoEth rfl rfl
    exBatch (by decide) (by decide +kernel) ?_ _ ⟨_, _, rfl, rfl⟩ rfl (by decide)).2
  intro m hm h
  simp only [exBatch, List.mem_cons, List.not_mem_nil, or_false] at hm
  rcases hm with rfl | rfl | rfl
  · exact ⟨rfl, exOpenSui⟩
  · exact absurd h (by decide +kernel)
  · exact ⟨rfl, exOpenFantom⟩

/-- two of the three messages are verified -/
example : exBatch.map (fun m => askVerifier exP (worldAfter exP exSetup exVoted) 12 [m]) =
    [some [(exMsg1.ccId, true)], some [(exMsg4.ccId, false)], some [(exMsg2.ccId, true)]] := by
  decide +kernel

end Amp.Chain
