import Verif.Chain.EventProps
import Verif.Chain.ProverExample

/-!
# C74 is false: one contract call on `eth`, two messages signed for `sui`
-/

namespace Amp.Chain

open Amp.Router (ChainName CCId Message idSep)

/-- the transaction -/
def twTx : Encoding.Bytes := List.replicate 32 171

/-- two spellings of the id of one event, and the id of another event -/
def twId1 : Str := writeH256 twTx ++ ":1".toList
def twId01 : Str := writeH256 twTx ++ ":01".toList
def twId2 : Str := writeH256 twTx ++ ":2".toList

def twMsg1 : Message := ⟨⟨eth, twId1⟩, "0xs".toList, sui, Prover.exAddress, List.replicate 32 7⟩
def twMsg01 : Message := ⟨⟨eth, twId01⟩, "0xs".toList, sui, Prover.exAddress, List.replicate 32 7⟩
def twMsg2 : Message := ⟨⟨eth, twId2⟩, "0xs".toList, sui, Prover.exAddress, List.replicate 32 8⟩

/-- the receipt of the transaction: two contract calls -/
def twReceipt : Ampd.Evm.Receipt Ampd.Evm.GatewayEvent where
  txHash := twTx
  blockNumber := some 80
  logs := [
    ⟨codes "0xgw", .contractCall (codes "0xs") sui Prover.exAddress (List.replicate 32 7), some twTx, some 1⟩,
    ⟨codes "0xgw", .contractCall (codes "0xs") sui Prover.exAddress (List.replicate 32 8), some twTx, some 2⟩]

/-- the node knows this receipt only -/
def twEnv : Ampd.Evm.Env Ampd.Evm.GatewayEvent where
  latestBlock := 5
  node := { finalizedBlock := none, blockNumber := some 100,
            receipt := fun h => some (if h = twTx then some twReceipt else none) }
  accepted := true
  order := id

/-- transaction ids are read as `H256`, other strings as their code points -/
def twReader : Ampd.Reader :=
  ⟨some, readH256, fun s => some (s.map Char.toNat), fun _ => none, fun _ => none⟩

def twEvm : Source := .evm Ampd.Evm.GatewayEvent Router.asciiLower twReader some (.other eth)
  (fun _ E => E = twEnv) (fun r => r = twReceipt)

def twSource (V : Addr) : Source := if V = 12 then twEvm else exSui

/-- all three are verified and routed, and signed for `sui` -/
def twTxs : List Tx := exTxs0 ++ [
  exTx 9 4 13 (.gateway (.verifyMessages [twMsg1, twMsg01, twMsg2])),
  exTx 5 5 12 (.verifier (.vote 1 [.succeededOnChain, .succeededOnChain, .succeededOnChain])),
  exTx 6 6 12 (.verifier (.vote 1 [.succeededOnChain, .succeededOnChain, .succeededOnChain])),
  exTx 9 7 13 (.gateway (.routeMessages [twMsg1, twMsg01, twMsg2])),
  exTx 9 9 19 (.prover (.constructProof [twMsg1.ccId, twMsg01.ccId])),
  exTx 5 10 18 (.multisig (.submitSignature 1 (List.replicate 64 5))),
  exTx 7 10 18 (.multisig (.submitSignature 1 (List.replicate 64 7)))]

def twStarted : VV.Event := .messagesPollStarted
  [⟨writeH256 twTx, 1, Prover.exAddress, sui, "0xs".toList, List.replicate 32 7⟩,
   ⟨writeH256 twTx, 1, Prover.exAddress, sui, "0xs".toList, List.replicate 32 7⟩,
   ⟨writeH256 twTx, 2, Prover.exAddress, sui, "0xs".toList, List.replicate 32 8⟩]
  ⟨1, eth, "0xgw".toList, 1, 14, [5, 6, 7]⟩

theorem twLog12 : (verifierLog 12 (log exP exSetup twTxs)).map exView =
    [(13, .verifyMessages [twMsg1, twMsg01, twMsg2], some [5, 6, 7], some twStarted),
     (5, .vote 1 [.succeededOnChain, .succeededOnChain, .succeededOnChain], some [5, 6, 7], some (.voted 1 5)),
     (6, .vote 1 [.succeededOnChain, .succeededOnChain, .succeededOnChain], some [5, 6, 7], some (.voted 1 6))] := by
  decide +kernel

theorem twLog16 : (verifierLog 16 (log exP exSetup twTxs)).map exView = [] := by decide +kernel

theorem twHonest (vc : VV.Config) (w : Addr) (hw : w = 5 ∨ w = 6) :
    twEvm.Honest vc 12 (verifierLog 12 (log exP exSetup twTxs)) w := by
  refine evm_honest twLog12 (ev := twStarted) ?_ ?_ ?_ ?_
  · constructor <;> intro x hx <;> (simp [twEnv] at hx; try (subst hx; decide))
  · exact List.mem_cons_self ..
  · rcases hw with rfl | rfl <;> decide +kernel
  · intro h r hr
    simp only [twEnv, Option.some.injEq] at hr
    split at hr
    · simpa using hr.symm
    · simp at hr

theorem twWatched : AllWatched exP exSetup (log exP exSetup twTxs) 14 twSource :=
  watched_of (by rw [twLog12]; rfl) twLog16 twHonest

theorem twConsistent : twEvm.Consistent := by
  refine ⟨fun r r' h h' _ => by rw [h, h'], fun r h => ?_⟩
  rw [h]
  unfold Ampd.Evm.DistinctLogs
  decide

theorem twWired : Wired exSetup (log exP exSetup twTxs) 14 ⟨1, 1, 15⟩ ⟨2, 14⟩ := by
  refine ⟨rfl, rfl, ?_⟩
  intro e he _ n g hm
  have key : (log exP exSetup twTxs).all (fun e => exRegisters e.p.msg) = true := by decide +kernel
  have h := List.all_eq_true.mp key e he
  have hg : g = 13 ∨ g = 17 := by
    rcases hm with hm | hm <;> rw [hm] at h <;> exact of_decide_eq_true h
  rcases hg with rfl | rfl
  · exact ⟨_, _, rfl, rfl, by unfold VV.Config.Valid; decide⟩
  · exact ⟨_, _, rfl, rfl, by unfold VV.Config.Valid; decide⟩

/-- C74 is false: although every quorum contains an honest worker and each transaction of the source chain has one
receipt, the gateway of `sui` offers two messages with different ids that stem from one contract call on `eth`, and
the prover returns a completed proof that approves both, as commands with different ids. -/
theorem C74_counterexample :
    Wired exSetup (log exP exSetup twTxs) 14 ⟨1, 1, 15⟩ ⟨2, 14⟩ ∧
    AllWatched exP exSetup (log exP exSetup twTxs) 14 twSource ∧ (∀ V, V = 12 → (twSource V).Consistent) ∧
    twMsg1.ccId ≠ twMsg01.ccId ∧
    askGateway (worldAfter exP exSetup twTxs) 17 [twMsg1.ccId, twMsg01.ccId] = .ok [twMsg1, twMsg01] ∧
    (twSource 12).eventOf twMsg1 = some (twTx, 1) ∧ (twSource 12).eventOf twMsg01 = some (twTx, 1) ∧
    ∃ p d c c', askProof exP (worldAfter exP exSetup twTxs) 19 1 = .ok p ∧ p.status = .completed d ∧
      p.messageIds = [twMsg1.ccId, twMsg01.ccId] ∧ p.data.commands = [c, c'] ∧ c.id ≠ c'.id := by
  refine ⟨twWired, twWatched, ?_, by decide +kernel, by decide +kernel, by decide +kernel, by decide +kernel, ?_⟩
  · rintro V rfl
    exact twConsistent
  · have key : (match askProof exP (worldAfter exP exSetup twTxs) 19 1 with
        | .ok p => match p.status, p.data.commands with
          | .completed _, [c, c'] => decide (p.messageIds = [twMsg1.ccId, twMsg01.ccId] ∧ c.id ≠ c'.id)
          | _, _ => false
        | .error _ => false) = true := by decide +kernel
    split at key
    · rename_i p hp
      split at key
      · rename_i d c c' hd hc
        have := of_decide_eq_true key
        exact ⟨p, d, c, c', hp, hd, this.1, hc, this.2⟩
      · simp at key
    · simp at key

theorem tw_emitted (m : Message) (hm : m = twMsg1 ∨ m = twMsg01 ∨ m = twMsg2) :
    EmittedAtSource exP exSetup (log exP exSetup twTxs) 14 twSource m := by
  have h : askGateway (worldAfter exP exSetup twTxs) 17 [m.ccId] = .ok [m] := by
    rcases hm with rfl | rfl | rfl <;> decide +kernel
  rcases (C75_delivered_emitted exP exSetup twTxs 14 _ _ twWired twSource twWatched 17 ⟨16, 14⟩ rfl rfl _ _ h).2 with
    ⟨e, he, _, _, ns, hm, n, hn, hx⟩ | h
  · exfalso
    have key : (log exP exSetup twTxs).all (fun e => match e.p.msg with
      | .nexus (.routeMessagesFromNexus _) => false
      | _ => true) = true := by decide +kernel
    have := List.all_eq_true.mp key e he
    rw [hm] at this
    simp at this
  · exact h

theorem tw_emitted12 (m : Message) (hm : m = twMsg1 ∨ m = twMsg01 ∨ m = twMsg2) :
    ∃ vc, twEvm.Emitted vc m := by
  obtain ⟨g, gc, vc, _, h2, h3, h4, h5⟩ := tw_emitted m hm
  have hg : gc.verifier = 12 := by
    unfold exSetup at h2
    split at h2 <;> simp only [Option.some.injEq, reduceCtorEq, Kind.gateway.injEq] at h2
    · subst h2; rfl
    · subst h2
      exfalso
      have : vc = ⟨10, svc, "0x2".toList, ⟨2, 3⟩, 10, 1, sui, 11⟩ := (Kind.verifier.inj (Option.some.inj h3)).symm
      rw [this] at h4
      have hc : m.ccId.chain = eth := by rcases hm with rfl | rfl | rfl <;> rfl
      rw [hc] at h4
      exact absurd h4 (by decide)
  rw [hg] at h5
  exact ⟨vc, h5⟩

/-- the hypotheses of `C74_same_content_partial` hold of the two spellings -/
example : ∃ vc vc', twEvm.Consistent ∧ twEvm.Emitted vc twMsg1 ∧ twEvm.Emitted vc' twMsg01 ∧
    twEvm.eventOf twMsg1 = twEvm.eventOf twMsg01 := by
  obtain ⟨vc, h⟩ := tw_emitted12 twMsg1 (Or.inl rfl)
  obtain ⟨vc', h'⟩ := tw_emitted12 twMsg01 (Or.inr (Or.inl rfl))
  exact ⟨vc, vc', twConsistent, h, h', by decide +kernel⟩

/-- the hypotheses of `C74_canonical_h256_partial` hold of the first and the third message -/
example : twEvm.eventOf twMsg1 ≠ twEvm.eventOf twMsg2 := by
  obtain ⟨vc, h⟩ := tw_emitted12 twMsg1 (Or.inl rfl)
  obtain ⟨vc', h'⟩ := tw_emitted12 twMsg2 (Or.inr (Or.inr rfl))
  have hb : IsBytes twTx := by intro x hx; rw [List.eq_of_mem_replicate hx]; decide
  exact C74_canonical_h256_partial _ _ _ rfl _ _ _ _ vc vc' _ _ h h' twTx twTx 1 2 ⟨hb, rfl⟩ ⟨hb, rfl⟩ (by decide)
    (by decide) (by decide +kernel) (by decide +kernel) (by decide +kernel)

end Amp.Chain
