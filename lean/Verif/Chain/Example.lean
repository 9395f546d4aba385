import Verif.Chain.Props
import Verif.Prover.SystemExample
import Verif.VV.Props

/-!
# A concrete history of the whole chain

Two chains, `eth` and `sui`, and nexus.  Workers bond, two of three confirm a message from `eth`, it is routed to
`sui` and to nexus, nexus sends one to `sui`, and the prover of `sui` has two of them signed.
-/

namespace Amp.Chain

open Amp.Router (ChainName CCId Message)

def exP : Params := ⟨VV.exH, Prover.tX, Multisig.exCrypto⟩

def eth : ChainName := "eth".toList
def sui : ChainName := "sui".toList
def fantom : ChainName := "fantom".toList
def svc : Str := "svc".toList

/-- 1 is governance, 2 the nexus module, 5 to 7 are workers, 9 is anyone; the contracts are 10 to 19 -/
def exSetup : Setup
  | 10 => some (.registry 1)
  | 11 => some (.rewards ⟨1, "axl".toList⟩ ⟨100, 1000, ⟨1, 2⟩⟩ 1)
  | 12 => some (.verifier ⟨10, svc, "0xgw".toList, ⟨2, 3⟩, 10, 1, eth, 11⟩)
  | 13 => some (.gateway ⟨12, 14⟩)
  | 14 => some (.router ⟨1, 1, 15⟩)
  | 15 => some (.nexus ⟨2, 14⟩)
  | 16 => some (.verifier ⟨10, svc, "0x2".toList, ⟨2, 3⟩, 10, 1, sui, 11⟩)
  | 17 => some (.gateway ⟨16, 14⟩)
  | 18 => some (.multisig ⟨1, 11, 5⟩)
  | 19 => some (.prover ⟨17, 18, 10, 16, 10, ⟨2, 3⟩, sui, 1, .bcs⟩ svc .ecdsa)
  | _ => none

/-- from `eth` to `sui`, to nexus, and from nexus to `sui` -/
def exMsg1 : Message := ⟨⟨eth, "0xab:1".toList⟩, "0xs".toList, sui, Prover.exAddress, List.replicate 32 7⟩
def exMsg2 : Message := ⟨⟨eth, "0xab:2".toList⟩, "0xs".toList, fantom, "0xd".toList, List.replicate 32 8⟩
def exNexus : Nexus.NexusMsg := ⟨fantom, "0xf".toList, sui, Prover.exAddress, List.replicate 32 9, [205], 3⟩
def exMsg3 : Message := Nexus.toRouter exNexus

def exTx (sender : Addr) (height : Nat) (target : Addr) (msg : Msg) (funds : List Registry.Coin := []) : Tx :=
  ⟨sender, [(target, funds, msg)], ⟨height, height * 5000000000⟩, fun _ => false, 20⟩

/-- the contracts are connected and the workers join -/
def exTxs0 : List Tx := [
  exTx 1 1 10 (.registry (.registerService svc ⟨10, "axl".toList, 1⟩)),
  exTx 5 1 10 (.registry (.bondWorker svc)) [("axl".toList, 10)],
  exTx 6 1 10 (.registry (.bondWorker svc)) [("axl".toList, 10)],
  exTx 7 1 10 (.registry (.bondWorker svc)) [("axl".toList, 10)],
  exTx 5 1 10 (.registry (.declareChainSupport svc [eth, sui])),
  exTx 6 1 10 (.registry (.declareChainSupport svc [eth, sui])),
  exTx 7 1 10 (.registry (.declareChainSupport svc [eth, sui])),
  exTx 1 2 10 (.registry (.authorizeWorkers [5, 6, 7] svc)),
  exTx 1 2 14 (.router (.registerChain eth 13)),
  exTx 1 2 14 (.router (.registerChain sui 17)),
  exTx 1 2 18 (.multisig (.authorizeCaller 19)),
  exTx 5 2 18 (.multisig (.registerPublicKey .ecdsa (List.replicate 33 5))),
  exTx 6 2 18 (.multisig (.registerPublicKey .ecdsa (List.replicate 33 6))),
  exTx 7 2 18 (.multisig (.registerPublicKey .ecdsa (List.replicate 33 7))),
  exTx 9 3 19 (.prover .updateWorkerSet)]

/-- two messages from `eth` are verified and routed, one comes from nexus -/
def exTxs1 : List Tx := [
  exTx 9 4 13 (.gateway (.verifyMessages [exMsg1, exMsg2])),
  exTx 9 4 13 (.gateway (.routeMessages [exMsg1, exMsg2])),
  exTx 5 5 12 (.verifier (.vote 1 [.succeededOnChain, .succeededOnChain])),
  exTx 6 6 12 (.verifier (.vote 1 [.succeededOnChain, .succeededOnChain])),
  exTx 9 7 13 (.gateway (.routeMessages [exMsg1, exMsg2])),
  exTx 2 8 15 (.nexus (.routeMessagesFromNexus [exNexus]))]

/-- a proof is asked for and two of three workers sign -/
def exTxs2 : List Tx := [
  exTx 9 9 19 (.prover (.constructProof [exMsg1.ccId, exMsg3.ccId])),
  exTx 5 10 18 (.multisig (.submitSignature 1 (List.replicate 64 5))),
  exTx 7 10 18 (.multisig (.submitSignature 1 (List.replicate 64 7))),
  exTx 9 20 12 (.verifier (.endPoll 1))]

def exTxs : List Tx := exTxs0 ++ exTxs1 ++ exTxs2

/-- everything succeeds: sender and recipient of every message -/
example : (log exP exSetup exTxs).map (fun e => (e.p.sender, e.p.target)) =
    [(1, 10), (5, 10), (6, 10), (7, 10), (5, 10), (6, 10), (7, 10), (1, 10), (1, 14), (1, 14), (1, 18), (5, 18),
      (6, 18), (7, 18), (9, 19), (19, 18),
      (9, 13), (13, 12), (9, 13), (5, 12), (6, 12), (9, 13), (13, 14), (14, 17), (14, 15),
      (2, 15), (15, 14), (14, 17),
      (9, 19), (19, 18), (5, 18), (18, 11), (7, 18), (18, 11), (9, 12), (12, 11), (12, 11)] := by
  decide +kernel

/-- the gateways that a message registers are 13 and 17 -/
def exRegisters : Msg → Bool
  | .router (.registerChain _ g) => g = 13 ∨ g = 17
  | .router (.upgradeGateway _ g) => g = 13 ∨ g = 17
  | _ => true

theorem exWired : Wired exSetup (log exP exSetup exTxs) 14 ⟨1, 1, 15⟩ ⟨2, 14⟩ := by
  refine ⟨rfl, rfl, ?_⟩
  intro e he _ n g hm
  have key : (log exP exSetup exTxs).all (fun e => exRegisters e.p.msg) = true := by decide +kernel
  have h := List.all_eq_true.mp key e he
  have hg : g = 13 ∨ g = 17 := by
    rcases hm with hm | hm <;> rw [hm] at h <;> exact of_decide_eq_true h
  rcases hg with rfl | rfl
  · exact ⟨_, _, rfl, rfl, by unfold VV.Config.Valid; decide⟩
  · exact ⟨_, _, rfl, rfl, by unfold VV.Config.Valid; decide⟩

/-- the hypotheses of `C72_delivered` hold: the gateway of `sui` has a message from `eth` and one from nexus -/
example : askGateway (worldAfter exP exSetup exTxs) 17 [exMsg1.ccId] = .ok [exMsg1] ∧
    askGateway (worldAfter exP exSetup exTxs) 17 [exMsg3.ccId] = .ok [exMsg3] := by
  constructor <;> decide +kernel

/-- what the nexus gateway handed on -/
def exForwarded : Act → List Message
  | .nexus _ r => r.forwarded
  | _ => []

/-- the hypotheses of `C72_to_nexus` and `C29_at_most_once` hold: one message was handed to the nexus module -/
example : (log exP exSetup exTxs).flatMap (fun e => exForwarded e.act) = [exMsg2] ∧
    Nexus.forwardedIds (Nexus.history ⟨2, 14⟩ (nexusCalls 15 (log exP exSetup exTxs))) = [exMsg2.ccId] := by
  constructor <;> decide +kernel

end Amp.Chain
