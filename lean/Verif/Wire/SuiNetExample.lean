import Verif.Chain.ProverExample
import Verif.Wire.SuiEventsExample

/-!
# The hypotheses of C112 hold in the concrete history, if the source chain is a Sui chain
-/

namespace Amp.Chain

open Amp.Router (ChainName CCId Message Lowering)
open Amp.Wire (Json suiJson shownCall SaysSuiCall)

/-- addresses and digests are 32 bytes -/
def ex32 (s : Str) : Encoding.Bytes := List.replicate (32 - s.length) 0 ++ s.map Char.toNat

def exSuiReader : Ampd.Reader :=
  { Ampd.Evm.exTrustReader with digest := fun s => some (ex32 s), suiAddr := fun s => some (ex32 s) }

/-- the block of the transaction `0xab`: two contract calls -/
def exNetBlock : Ampd.Sui.TxBlock Json where
  digest := ex32 "0xab".toList
  checkpoint := some 3
  events := some [
    ⟨1, ⟨ex32 "0xgw".toList, "gateway".toList, "ContractCall".toList, []⟩,
      shownCall (ex32 "0xs".toList) sui Prover.exAddress [1] (List.replicate 32 7)⟩,
    ⟨2, ⟨ex32 "0xgw".toList, "gateway".toList, "ContractCall".toList, []⟩,
      shownCall (ex32 "0xs".toList) fantom "0xd".toList [1, 2] (List.replicate 32 8)⟩]

/-- the node knows this block only -/
def exNetEnv : Ampd.Sui.Env Json where
  latestBlock := 5
  node := { getBlock := fun _ => none, multiGet := fun _ => some [exNetBlock] }
  accepted := true
  order := id

def exNetSui : Source := .sui Json Router.asciiLower exSuiReader suiJson (fun _ E => E = exNetEnv)
  (fun b => b = exNetBlock)

def exNetSource (V : Addr) : Source := if V = 12 then exNetSui else exSui

theorem exNetHonest (vc : VV.Config) (w : Addr) (hw : w = 5 ∨ w = 6) :
    exNetSui.Honest vc 12 (verifierLog 12 (log exP exSetup exTxs)) w := by
  have hstart : some exStarted ∈ ((verifierLog 12 (log exP exSetup exTxs)).map exView).map (fun x => x.2.2.2) := by
    rw [exLog12]
    exact List.mem_cons_self ..
  have hvotes : ((verifierLog 12 (log exP exSetup exTxs)).map exView).all (fun x => match x.2.1 with
      | .vote id votes => decide (x.1 = w → (⟨w, 12, .vote id votes⟩ : Ampd.ExecTx) ∈
          (Ampd.Sui.handleMessages Router.asciiLower suiJson (Ampd.Sui.readMessagesPoll Router.asciiLower exSuiReader)
            ⟨w, 12⟩ exNetEnv (.abci (Ampd.announced 12 exStarted))).sent)
      | _ => true) = true := by
    rw [exLog12]
    rcases hw with rfl | rfl <;> decide +kernel
  constructor
  · obtain ⟨x, hx, hxe⟩ := List.mem_map.mp hstart
    obtain ⟨e0, h0, rfl⟩ := List.mem_map.mp hx
    intro e he hs id votes hm
    refine ⟨e0, h0, exStarted, exNetEnv, hxe, rfl, Or.inl ?_⟩
    have := List.all_eq_true.mp hvotes _ (List.mem_map_of_mem he)
    simp only [exView, hm] at this
    exact of_decide_eq_true this hs
  · intro E b hE hb _
    subst hE
    rcases hb with ⟨_, bs, h, hb⟩ | ⟨_, h⟩
    · simp only [exNetEnv, Option.some.injEq] at h
      subst h
      simpa using hb
    · simp [exNetEnv] at h

theorem exNetWatched : AllWatched exP exSetup (log exP exSetup exTxs) 14 exNetSource :=
  watched_of (by rw [exLog12]; rfl) exLog16 exNetHonest

/-- so the message that the gateway of `sui` offers is in an event of the block -/
example : ∃ es, exNetBlock.events = some es ∧ ∃ e ∈ es, e.seq = 1 ∧
    ∃ chain, Router.asciiLower.f chain = sui ∧
      SaysSuiCall e.json ⟨ex32 "0xs".toList, chain, Prover.exAddress, exMsg1.payloadHash⟩ := by
  have h : askGateway (worldAfter exP exSetup exTxs) 17 [exMsg1.ccId] = .ok [exMsg1] := by decide +kernel
  rcases (C112_delivered exP exSetup exTxs 14 _ _ exWired exNetSource exNetWatched 17 ⟨16, 14⟩ rfl rfl _ _ h).2 with
    ⟨e, he, _, _, ns, hm, n, hn, hx⟩ | h
  · exfalso
    have hc : exMsg1.ccId.chain = n.sourceChain := by rw [hx]; rfl
    have key : (log exP exSetup exTxs).all (fun e => match e.p.msg with
      | .nexus (.routeMessagesFromNexus ns) => ns.all (fun n => decide (n.sourceChain = fantom))
      | _ => true) = true := by decide +kernel
    have := List.all_eq_true.mp key e he
    rw [hm] at this
    have := of_decide_eq_true (List.all_eq_true.mp this n hn)
    rw [this] at hc
    exact absurd hc (by decide)
  · obtain ⟨g, gc, vc, _, h2, h3, h4, _, h5⟩ := h
    have hV : gc.verifier = 12 ∧ vc = ⟨10, svc, "0xgw".toList, ⟨2, 3⟩, 10, 1, eth, 11⟩ := by
      unfold exSetup at h2
      split at h2 <;> simp only [Option.some.injEq, reduceCtorEq, Kind.gateway.injEq] at h2
      · subst h2
        exact ⟨rfl, (Kind.verifier.inj (Option.some.inj h3)).symm⟩
      · subst h2
        have := Kind.verifier.inj (Option.some.inj h3)
        subst this
        exact absurd h4 (by decide)
    obtain ⟨hV, rfl⟩ := hV
    obtain ⟨tx, i, hh, gateway, src, dest, b, k1, k2, k3, k4, k5, k6, _, _, es, g1, e, g2, g3, _, chain, g4, g5⟩ :=
      h5 Router.asciiLower exSuiReader (fun _ E => E = exNetEnv) (fun b => b = exNetBlock) (by rw [hV]; rfl)
    subst k6
    have e1 : some (tx, i) = some ("0xab".toList, 1) := by rw [← k1]; decide +kernel
    have e3 : some src = some (ex32 "0xs".toList) := by rw [← k4]; decide +kernel
    have e4 : some dest = some sui := by rw [← k5]; decide +kernel
    simp only [Option.some.injEq, Prod.mk.injEq] at e1 e3 e4
    obtain ⟨rfl, rfl⟩ := e1
    subst e3 e4
    exact ⟨es, g1, e, g2, g3, chain, g4, g5⟩

end Amp.Chain
