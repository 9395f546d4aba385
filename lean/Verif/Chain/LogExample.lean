import Verif.Chain.LogProps
import Verif.Chain.ProverExample
import Verif.Ampd.EvmLogExample

/-!
# The hypotheses of C110 hold in the concrete history, with logs as bytes
-/

namespace Amp.Chain

open Amp.Router (ChainName CCId Message Lowering)
open Amp.Ampd.Evm (RawLog exLib decodeLog)

/-- addresses are twenty bytes -/
def exRawReader : Ampd.Reader :=
  { Ampd.Evm.exTrustReader with
    addr := fun s => (Ampd.Evm.exTrustReader.addr s).map (fun b => List.replicate (20 - b.length) 0 ++ b) }

def exPad (b : Encoding.Bytes) : Encoding.Bytes := List.replicate (20 - b.length) 0 ++ b

/-- the log of a contract call -/
def exRawLog (chain address hash : Encoding.Bytes) : RawLog where
  topics := [exLib.topic Ampd.Evm.contractCallText, List.replicate 12 0 ++ exPad (codes "0xs"), hash]
  data := match Encoding.Abi.ethabiEncode [.elem (.bytes chain), .elem (.bytes address), .elem (.bytes [1])] with
    | .ok b => b
    | .error _ => []

/-- the receipt of the transaction `0xab`: two contract calls -/
def exRawReceipt : Ampd.Evm.Receipt RawLog where
  txHash := codes "0xab"
  blockNumber := some 80
  logs := [
    ⟨exPad (codes "0xgw"), exRawLog (utf8Bytes sui) (utf8Bytes Prover.exAddress) (List.replicate 32 7),
      some (codes "0xab"), some 1⟩,
    ⟨exPad (codes "0xgw"), exRawLog (utf8Bytes fantom) (utf8Bytes "0xd".toList) (List.replicate 32 8),
      some (codes "0xab"), some 2⟩]

/-- the node knows this receipt only -/
def exRawEnv : Ampd.Evm.Env RawLog where
  latestBlock := 5
  node := { finalizedBlock := none, blockNumber := some 100,
            receipt := fun h => some (if h = codes "0xab" then some exRawReceipt else none) }
  accepted := true
  order := id

def exRawEvm : Source := .evm RawLog Router.asciiLower exRawReader (decodeLog exLib) (.other eth)
  (fun _ E => E = exRawEnv) (fun r => r = exRawReceipt)

def exRawSource (V : Addr) : Source := if V = 12 then exRawEvm else exSui

theorem exRawHonest (vc : VV.Config) (w : Addr) (hw : w = 5 ∨ w = 6) :
    exRawEvm.Honest vc 12 (verifierLog 12 (log exP exSetup exTxs)) w := by
  refine evm_honest exLog12 (ev := exStarted) ?_ ?_ ?_ ?_
  · constructor <;> intro x hx <;> (simp [exRawEnv] at hx; try (subst hx; decide))
  · exact List.mem_cons_self ..
  · rcases hw with rfl | rfl <;> decide +kernel
  · intro h r hr
    simp only [exRawEnv, Option.some.injEq] at hr
    split at hr
    · simpa using hr.symm
    · simp at hr

theorem exRawWatched : AllWatched exP exSetup (log exP exSetup exTxs) 14 exRawSource :=
  watched_of (by rw [exLog12]; rfl) exLog16 exRawHonest

/-- so the message that the gateway of `sui` offers is in a log of the receipt -/
example : ∃ l ∈ exRawReceipt.logs, l.index = some 1 ∧ l.address = exPad (codes "0xgw") ∧
    ∃ c a, Ampd.Evm.SaysCall exLib.keccak l.content (exPad (codes "0xs")) c a exMsg1.payloadHash ∧
      Router.asciiLower.f (exLib.lossy c) = sui ∧ exLib.lossy a = Prover.exAddress := by
  have h : askGateway (worldAfter exP exSetup exTxs) 17 [exMsg1.ccId] = .ok [exMsg1] := by decide +kernel
  rcases (C110_delivered exP exSetup exTxs 14 _ _ exWired exRawSource exRawWatched 17 ⟨16, 14⟩ rfl rfl _ _ h).2 with
    ⟨e, he, _, _, ns, hm, n, hn, hx⟩ | h
  · exfalso
    have hc : exMsg1.ccId.chain = n.sourceChain := by rw [hx]; rfl
    have key : (log exP exSetup exTxs).all (fun e => match e.p.msg with
      | .nexus (.routeMessagesFromNexus ns) => ns.all (fun n => decide (n.sourceChain = fantom))
      | _ => true) = true := by decide +kernel
    have := List.all_eq_true.mp key e he
    rw [hm] at this
    have := of_decide_eq_true (List.all_eq_true.mp this n hn)
    rw [this] at hc
    exact absurd hc (by decide)
  · obtain ⟨g, gc, vc, _, h2, h3, h4, _, h5⟩ := h
    have hV : gc.verifier = 12 ∧ vc = ⟨10, svc, "0xgw".toList, ⟨2, 3⟩, 10, 1, eth, 11⟩ := by
      unfold exSetup at h2
      split at h2 <;> simp only [Option.some.injEq, reduceCtorEq, Kind.gateway.injEq] at h2
      · subst h2
        exact ⟨rfl, (Kind.verifier.inj (Option.some.inj h3)).symm⟩
      · subst h2
        have := Kind.verifier.inj (Option.some.inj h3)
        subst this
        exact absurd h4 (by decide)
    obtain ⟨hV, rfl⟩ := hV
    obtain ⟨tx, i, hh, gateway, src, dest, r, k1, k2, k3, k4, k5, k6, _, l, hl, g1, _, g2, c, a, g3, g4, g5⟩ :=
      h5 exLib Router.asciiLower exRawReader (.other eth) (fun _ E => E = exRawEnv) (fun r => r = exRawReceipt)
        (by rw [hV]; rfl) (by
          intro r hr
          subst hr
          unfold Ampd.Evm.Words
          decide +kernel)
    subst k6
    have e1 : some (tx, i) = some ("0xab".toList, 1) := by rw [← k1]; decide +kernel
    have e2 : some gateway = some (exPad (codes "0xgw")) := by rw [← k3]; decide +kernel
    have e3 : some src = some (exPad (codes "0xs")) := by rw [← k4]; decide +kernel
    have e4 : some dest = some sui := by rw [← k5]; decide +kernel
    simp only [Option.some.injEq, Prod.mk.injEq] at e1 e2 e3 e4
    obtain ⟨rfl, rfl⟩ := e1
    subst e2 e3 e4
    exact ⟨l, hl, g1, g2, c, a, g3, g4, g5⟩

end Amp.Chain
