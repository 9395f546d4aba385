import Verif.Chain.TrustProps
import Verif.Chain.Example

/-!
# The hypotheses of C75 hold in the concrete history: workers 5 and 6 run the daemon
-/

namespace Amp.Chain

open Amp.Router (ChainName CCId Message Lowering)

def codes (s : String) : Encoding.Bytes := s.toList.map Char.toNat

/-- the receipt of the transaction `0xab`: two contract calls -/
def exReceipt : Ampd.Evm.Receipt Ampd.Evm.GatewayEvent where
  txHash := codes "0xab"
  blockNumber := some 80
  logs := [
    ⟨codes "0xgw", .contractCall (codes "0xs") sui Prover.exAddress (List.replicate 32 7), some (codes "0xab"), some 1⟩,
    ⟨codes "0xgw", .contractCall (codes "0xs") fantom "0xd".toList (List.replicate 32 8), some (codes "0xab"), some 2⟩]

/-- the node knows this receipt only -/
def exEnv : Ampd.Evm.Env Ampd.Evm.GatewayEvent where
  latestBlock := 5
  node := { finalizedBlock := none, blockNumber := some 100,
            receipt := fun h => some (if h = codes "0xab" then some exReceipt else none) }
  accepted := true
  order := id

def exEvm : Source := .evm Ampd.Evm.GatewayEvent Router.asciiLower Ampd.Evm.exTrustReader some (.other eth)
  (fun _ E => E = exEnv) (fun r => r = exReceipt)

/-- nothing is known of Sui -/
def exSui : Source := .sui Unit Router.asciiLower Ampd.Evm.exTrustReader ⟨fun _ => none, fun _ => none⟩
  (fun _ _ => False) (fun _ => False)

def exSource (V : Addr) : Source := if V = 12 then exEvm else exSui

/-- the poll that the verifier of `eth` opened -/
def exStarted : VV.Event := .messagesPollStarted
  [⟨"0xab".toList, 1, Prover.exAddress, sui, "0xs".toList, List.replicate 32 7⟩,
   ⟨"0xab".toList, 2, "0xd".toList, fantom, "0xs".toList, List.replicate 32 8⟩]
  ⟨1, eth, "0xgw".toList, 1, 14, [5, 6, 7]⟩

abbrev exView (e : VV.Call × VV.Resp) : Addr × VV.Msg × Option (List Addr) × Option VV.Event :=
  (e.1.sender, e.1.msg, e.1.workers.map (fun l => l.map (fun x => x.address)), e.2.event)

theorem exLog12 : (verifierLog 12 (log exP exSetup exTxs)).map exView =
    [(13, .verifyMessages [exMsg1, exMsg2], some [5, 6, 7], some exStarted),
     (5, .vote 1 [.succeededOnChain, .succeededOnChain], some [5, 6, 7], some (.voted 1 5)),
     (6, .vote 1 [.succeededOnChain, .succeededOnChain], some [5, 6, 7], some (.voted 1 6)),
     (9, .endPoll 1, some [5, 6, 7], some (.pollEnded 1 [some .succeededOnChain, some .succeededOnChain]))] := by
  decide +kernel

theorem exLog16 : (verifierLog 16 (log exP exSetup exTxs)).map exView = [] := by decide +kernel

/-- a worker whose votes are those that the daemon sends upon the event `ev` is honest -/
theorem evm_honest {lg : List (VV.Call × VV.Resp)} {view : List (Addr × VV.Msg × Option (List Addr) × Option VV.Event)}
    (hview : lg.map exView = view) {D : Type} {dec : D → Option Ampd.Evm.GatewayEvent} {R : Ampd.Reader}
    {E : Ampd.Evm.Env D} {rec : Ampd.Evm.Receipt D} {ev : VV.Event} {vc : VV.Config} {w : Addr}
    (hb : Ampd.Evm.Bounded E.node) (hstart : some ev ∈ view.map (fun x => x.2.2.2))
    (hvotes : view.all (fun x => match x.2.1 with
      | .vote id votes => decide (x.1 = w → (⟨w, 12, .vote id votes⟩ : Ampd.ExecTx) ∈
          (Ampd.Evm.handleMessages Router.asciiLower dec (Ampd.Evm.readMessagesPoll Router.asciiLower R)
            ⟨w, 12, .other eth⟩ E (.abci (Ampd.announced 12 ev))).sent)
      | _ => true) = true)
    (hnode : ∀ h r, E.node.receipt h = some (some r) → r = rec) :
    (Source.evm D Router.asciiLower R dec (.other eth) (fun _ E' => E' = E)
      (fun r => r = rec)).Honest vc 12 lg w := by
  constructor
  · obtain ⟨x, hx, hxe⟩ := List.mem_map.mp hstart
    rw [← hview] at hx
    obtain ⟨e0, h0, rfl⟩ := List.mem_map.mp hx
    intro e he hs id votes hm
    refine ⟨e0, h0, ev, E, hxe, rfl, hb, Or.inl ?_⟩
    have he' : exView e ∈ view := by rw [← hview]; exact List.mem_map_of_mem he
    have := List.all_eq_true.mp hvotes _ he'
    simp only [exView, hm] at this
    exact of_decide_eq_true this hs
  · intro E' h r b hE hr _ _
    subst hE
    exact hnode h r hr

/-- in the setup above, the verifier of `eth` is watched if workers 5 and 6 are honest, and that of `sui` if it
opens no poll -/
theorem watched_of {txs : List Tx} {s12 s16 : Source}
    (hview : ((verifierLog 12 (log exP exSetup txs)).map exView).all (fun x => x.2.2.1 = some [5, 6, 7]) = true)
    (h16 : (verifierLog 16 (log exP exSetup txs)).map exView = [])
    (hh : ∀ vc a, a = 5 ∨ a = 6 → s12.Honest vc 12 (verifierLog 12 (log exP exSetup txs)) a) :
    AllWatched exP exSetup (log exP exSetup txs) 14 (fun V => if V = 12 then s12 else s16) := by
  intro n g gc vc _ hg hv l₁ e l₂ hl ht c r pm hact hpm ws hws voters hnd hsub hq
  have hi := inv exP exSetup txs
  have hV : gc.verifier = 12 ∧ vc = ⟨10, svc, "0xgw".toList, ⟨2, 3⟩, 10, 1, eth, 11⟩ ∨ gc.verifier = 16 := by
    unfold exSetup at hg
    split at hg <;> simp only [Option.some.injEq, reduceCtorEq, Kind.gateway.injEq] at hg
    · subst hg
      left
      exact ⟨rfl, (Kind.verifier.inj (Option.some.inj hv)).symm⟩
    · subst hg
      exact Or.inr rfl
  have hmem : (c, r) ∈ verifierLog gc.verifier (log exP exSetup txs) := by
    unfold verifierLog
    refine List.mem_filterMap.mpr ⟨e.act, ?_, by rw [hact]⟩
    rw [← ht]
    exact actsAt_mem (by rw [hl]; simp)
  rcases hV with ⟨hV, rfl⟩ | hV
  · rw [hV] at hmem ht hv ⊢
    obtain ⟨c', r', g1, _, _, g2⟩ := hi.verifier_call hl (cfg := ⟨10, svc, "0xgw".toList, ⟨2, 3⟩, 10, 1, eth, 11⟩)
      (by unfold VV.Config.Valid; decide) (by rw [ht]; exact hv)
    rw [hact] at g1
    simp only [Act.verifier.injEq] at g1
    obtain ⟨rfl, rfl⟩ := g1
    have hws' : ws.map (·.address) = [5, 6, 7] := by
      have he' : exView (c, r) ∈ (verifierLog 12 (log exP exSetup txs)).map exView := List.mem_map_of_mem hmem
      have h1 := of_decide_eq_true (List.all_eq_true.mp hview _ he')
      have h2 : c.workers.map (fun l => l.map (fun x => x.address)) = some [5, 6, 7] := h1
      rw [g2, hws] at h2
      exact Option.some.inj h2
    have hlen : ws.length = 3 := by
      have := congrArg List.length hws'
      simpa using this
    have h567 : ∀ a ∈ voters, a = 5 ∨ a = 6 ∨ a = 7 := by
      intro a ha
      obtain ⟨w, hw, rfl⟩ := hsub a ha
      have : w.address ∈ ws.map (·.address) := List.mem_map_of_mem hw
      rw [hws'] at this
      simpa using this
    have h56 : ∃ a ∈ voters, a = 5 ∨ a = 6 := by
      by_contra hno
      have h7 : ∀ a ∈ voters, a = 7 := by
        intro a ha
        rcases h567 a ha with h | h | h
        · exact absurd ⟨a, ha, Or.inl h⟩ hno
        · exact absurd ⟨a, ha, Or.inr h⟩ hno
        · exact h
      simp only [hlen] at hq
      match voters, hnd, h7, hq with
      | [], _, _, hq => simp at hq
      | [_], _, _, hq => simp at hq
      | x :: y :: t, hnd, h7, _ =>
        have hx := h7 x (by simp)
        have hy := h7 y (by simp)
        subst hx; subst hy
        simp at hnd
    obtain ⟨a, ha, h⟩ := h56
    exact ⟨a, ha, hh _ a h⟩
  · rw [hV] at hmem
    have he' : exView (c, r) ∈ (verifierLog 16 (log exP exSetup txs)).map exView := List.mem_map_of_mem hmem
    rw [h16] at he'
    cases he'

theorem exHonest (vc : VV.Config) (w : Addr) (hw : w = 5 ∨ w = 6) :
    exEvm.Honest vc 12 (verifierLog 12 (log exP exSetup exTxs)) w := by
  refine evm_honest exLog12 (ev := exStarted) ?_ ?_ ?_ ?_
  · constructor <;> intro x hx <;> (simp [exEnv] at hx; try (subst hx; decide))
  · exact List.mem_cons_self ..
  · rcases hw with rfl | rfl <;> decide +kernel
  · intro h r hr
    simp only [exEnv, Option.some.injEq] at hr
    split at hr
    · simpa using hr.symm
    · simp at hr

theorem exWatched : AllWatched exP exSetup (log exP exSetup exTxs) 14 exSource :=
  watched_of (by rw [exLog12]; rfl) exLog16 exHonest

/-- so the message that the gateway of `sui` offers was emitted on `eth` -/
example : EmittedAtSource exP exSetup (log exP exSetup exTxs) 14 exSource exMsg1 := by
  have h : askGateway (worldAfter exP exSetup exTxs) 17 [exMsg1.ccId] = .ok [exMsg1] := by decide +kernel
  rcases (C75_delivered_emitted exP exSetup exTxs 14 _ _ exWired exSource exWatched 17 ⟨16, 14⟩ rfl rfl _ _ h).2 with
    ⟨e, he, _, _, ns, hm, n, hn, hx⟩ | h
  · exfalso
    have hc : exMsg1.ccId.chain = n.sourceChain := by rw [hx]; rfl
    have key : (log exP exSetup exTxs).all (fun e => match e.p.msg with
      | .nexus (.routeMessagesFromNexus ns) => ns.all (fun n => decide (n.sourceChain = fantom))
      | _ => true) = true := by decide +kernel
    have := List.all_eq_true.mp key e he
    rw [hm] at this
    have := of_decide_eq_true (List.all_eq_true.mp this n hn)
    rw [this] at hc
    exact absurd hc (by decide)
  · exact h

end Amp.Chain
