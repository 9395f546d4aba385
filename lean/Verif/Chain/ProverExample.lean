import Verif.Chain.ProverProps
import Verif.Chain.TrustExample

/-!
# C76 in the concrete history
-/

namespace Amp.Chain

open Amp.Router (ChainName CCId Message)

/-- the worker sets registered at `M` -/
def setsAt (M : Addr) (l : List Entry) : List Multisig.WorkerSet :=
  l.filterMap (fun e => if e.p.target = M then
    match e.p.msg with
    | .multisig (.registerWorkerSet r) => match r.decode with
      | .ok ws => some ws
      | .error _ => none
    | _ => none
  else none)

theorem setsDistinctAt_of {P : Params} {l : List Entry} {M : Addr} {sets : List Multisig.WorkerSet}
    (hs : setsAt M l = sets)
    (h : ∀ x ∈ sets, ∀ y ∈ sets, Prover.workerSetId P.X x = Prover.workerSetId P.X y → x = y) :
    SetsDistinctAt P l M := by
  have key : ∀ e ∈ l, e.p.target = M → ∀ r ws, e.p.msg = .multisig (.registerWorkerSet r) → r.decode = .ok ws →
      ws ∈ sets := by
    intro e he ht r ws hm hr
    rw [← hs]
    refine List.mem_filterMap.mpr ⟨e, he, ?_⟩
    rw [if_pos ht, hm]
    simp only
    rw [hr]
  intro e he e' he' ht ht' r r' ws ws' h1 h1' h2 h2' hid
  exact h ws (key e he ht r ws h1 h2) ws' (key e' he' ht' r' ws' h1' h2') hid

theorem exDistinct : SetsDistinctAt exP (log exP exSetup exTxs) 18 := by
  refine setsDistinctAt_of
    (sets := [⟨[5, 6, 7].map (fun a => (a, ⟨a, 1, .ecdsa (List.replicate 33 a)⟩)), 2, 3⟩]) ?_ ?_
  · decide +kernel
  · decide +kernel

/-- the remaining hypotheses of C76 hold: `GetProof` returns a completed proof for the message from `eth` and the
one from nexus -/
theorem exProof : ∃ p d, askProof exP (worldAfter exP exSetup exTxs) 19 1 = .ok p ∧ p.status = .completed d ∧
    p.messageIds = [exMsg1.ccId, exMsg3.ccId] ∧ p.data.commands.length = 2 := by
  have key : (match askProof exP (worldAfter exP exSetup exTxs) 19 1 with
      | .ok p => match p.status with
        | .completed _ => decide (p.messageIds = [exMsg1.ccId, exMsg3.ccId] ∧ p.data.commands.length = 2)
        | .pending => false
      | .error _ => false) = true := by decide +kernel
  split at key
  · rename_i p hp
    split at key
    · rename_i d hd
      have := of_decide_eq_true key
      exact ⟨p, d, hp, hd, this.1, this.2⟩
    · simp at key
  · simp at key

/-- so a quorum signed for messages that nexus injected or that were emitted on `eth` -/
example : ∃ cur digest signers ws msgs b, Prover.QuorumSigned exP.C cur digest signers ∧
    Prover.dataDigest exP.X .bcs b.data = .ok digest ∧
    Prover.IsBatch exP.X ⟨17, 18, 10, 16, 10, ⟨2, 3⟩, sui, 1, .bcs⟩ ws msgs b ∧
    ∀ m ∈ msgs, InjectedByNexus (log exP exSetup exTxs) 15 ⟨2, 14⟩ m ∨
      EmittedAtSource exP exSetup (log exP exSetup exTxs) 14 exSource m := by
  obtain ⟨p, d, h1, h2, _⟩ := exProof
  obtain ⟨_, _, _, cur, digest, signers, b, ws, msgs, _, _, _, hq, hd, hb, _, hm⟩ :=
    C76_signed_emitted exP exSetup exTxs 14 _ _ exWired exSource exWatched 19 _ _ _ rfl _ rfl _ rfl rfl exDistinct 1
      p d h1 h2
  exact ⟨cur, digest, signers, ws, msgs, b, hq, hd, hb, hm⟩

end Amp.Chain
