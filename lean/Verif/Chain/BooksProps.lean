import Verif.Chain.BooksLemmas

/-!
# C84: rewards follow the work done

What a worker is due at the rewards contract, in terms of the signatures recorded by the multisig contract and of the
polls of the voting verifier, not in terms of the messages exchanged.
-/

namespace Amp.Chain

/-- `a`'s signature is recorded for signing session `id` -/
def signedFor (s : Multisig.State) (id : Nat) (a : Addr) : Bool := ((s.signatures id).get? a).isSome

/-- poll `id` was ended and `a` voted with the consensus -/
def agreedIn (s : VV.State) (id : Nat) (a : Addr) : Bool :=
  match s.polls id with
  | some sp => decide (sp.poll.status = .finished ∧ a ∈ sp.poll.state.consensusParticipants)
  | none => false

/-- C84, signing: after any history of the chain, what workers are due from the pool of the multisig contract follows
the signatures recorded there.  Nobody can be recorded twice, or be left out, or recorded without having signed. -/
theorem C84_signing_rewards (P : Params) (setup : Setup) (txs : List Tx) (M : Addr) (mc : Multisig.Config)
    (hM : setup M = some (.multisig mc)) (rc : Rewards.Config) (rp : Rewards.Params) (h0 : Nat)
    (hR : setup mc.rewards = some (.rewards rc rp h0)) :
    ∃ m s, worldAfter P setup txs M = some (.multisig m) ∧ worldAfter P setup txs mc.rewards = some (.rewards s) ∧
      Rewards.FollowsWork s M (signedFor m) := by
  have hinv := inv P setup txs
  refine ⟨Multisig.stateAfter P.C (Prover.workerSetId P.X) mc (multisigCalls M (log P setup txs)), _, ?_,
    hinv.rewards_state hR, ?_⟩
  · rw [hinv.world]
    simp [worldOf, hM, replay, multisigCalls, Multisig.stateAfter]
  have hm := hinv.acts M _ hM
  simp only [Matches] at hm
  rw [outs_eq_steps, List.map_map] at hm
  have hrec : (actsAt M (log P setup txs)).flatMap (fun a => a.outs.filterMap (recordOut mc.rewards)) =
      (Multisig.recordsSent (Multisig.trace P.C (Prover.workerSetId P.X) mc
        (multisigCalls M (log P setup txs)))).filterMap
        (fun x => if x.contract = mc.rewards then some (x.eventId, x.worker) else none) := by
    rw [hm, List.flatMap_map]
    unfold Multisig.recordsSent
    rw [List.filterMap_flatMap]
    simp only [Function.comp_apply, Act.outs, List.filterMap_map]
    rfl
  obtain ⟨hnd, hmem⟩ := Multisig.C50_exactly_once P.C (Prover.workerSetId P.X) mc (multisigCalls M (log P setup txs))
  have hall : ∀ x ∈ Multisig.recordsSent (Multisig.trace P.C (Prover.workerSetId P.X) mc
      (multisigCalls M (log P setup txs))), x.contract = mc.rewards := by
    intro x hx
    obtain ⟨id, a, sig, rfl, _⟩ := (hmem x).mp hx
    rfl
  apply follows_of_sent P setup txs hR (by rw [hM]; rfl)
  · rw [hrec]
    generalize Multisig.recordsSent (Multisig.trace P.C (Prover.workerSetId P.X) mc
      (multisigCalls M (log P setup txs))) = l at hall hnd
    have hmap : List.filterMap (fun x : Multisig.Record => if x.contract = mc.rewards then some (x.eventId, x.worker)
        else none) l = l.map (fun x => (x.eventId, x.worker)) := by
      rw [← List.filterMap_eq_map]
      apply List.filterMap_congr
      intro x hx
      rw [if_pos (hall x hx)]
      rfl
    rw [hmap, List.nodup_map_iff_inj_on hnd]
    intro x hx y hy he
    have h1 := hall x hx
    have h2 := hall y hy
    obtain ⟨_, _, _⟩ := x
    obtain ⟨_, _, _⟩ := y
    simp only [Prod.mk.injEq] at he h1 h2
    rw [h1, h2, he.1, he.2]
  · intro ev a
    rw [hrec, List.mem_filterMap]
    constructor
    · rintro ⟨x, hx, he⟩
      obtain ⟨id, a', sig, rfl, hs⟩ := (hmem x).mp hx
      simp only [if_true, Option.some.injEq, Prod.mk.injEq] at he
      obtain ⟨rfl, rfl⟩ := he
      exact ⟨id, rfl, by simp [signedFor, hs]⟩
    · rintro ⟨id, rfl, hs⟩
      obtain ⟨sig, hs⟩ := Option.isSome_iff_exists.mp hs
      exact ⟨⟨mc.rewards, showNat id, a⟩, (hmem _).mpr ⟨id, a, sig, rfl, hs⟩, by simp⟩

/-- C84, voting: after any history of the chain with blocks in order, what workers are due from the pool of a voting
verifier follows the polls: a worker took part in a poll if it voted with the consensus and the poll was ended. -/
theorem C84_voting_rewards (P : Params) (setup : Setup) (txs : List Tx) (ho : InOrder txs) (V : Addr)
    (vc : VV.Config) (hv : vc.Valid) (hV : setup V = some (.verifier vc)) (rc : Rewards.Config) (rp : Rewards.Params)
    (h0 : Nat) (hR : setup vc.rewards = some (.rewards rc rp h0)) :
    ∃ v s, worldAfter P setup txs V = some (.verifier v) ∧ worldAfter P setup txs vc.rewards = some (.rewards s) ∧
      Rewards.FollowsWork s V (agreedIn v) := by
  have hinv := inv P setup txs
  refine ⟨_, _, hinv.verifier_state hV, hinv.rewards_state hR, ?_⟩
  have hm := hinv.acts V _ hV
  simp only [Matches] at hm
  have hrec : (actsAt V (log P setup txs)).flatMap (fun a => a.outs.filterMap (recordOut vc.rewards)) =
      (VV.rewardMsgs (VV.history P.H vc (verifierCalls V (log P setup txs)))).filterMap
        (fun x => if x.contract = vc.rewards then some (x.eventId, x.worker) else none) := by
    rw [hm, List.flatMap_map]
    unfold VV.rewardMsgs
    rw [List.filterMap_flatMap]
    simp only [Act.outs, List.filterMap_map]
    rfl
  have hnd := VV.C15_at_most_once P.H vc hv (verifierCalls V (log P setup txs))
  have hmem := VV.C15_records_exact P.H vc hv (verifierCalls V (log P setup txs))
    (calls_inOrder P setup V txs ho).1
  have hall : ∀ x ∈ VV.rewardMsgs (VV.history P.H vc (verifierCalls V (log P setup txs))),
      x.contract = vc.rewards := by
    intro x hx
    obtain ⟨id, sp, a, rfl, _⟩ := (hmem x).mp hx
    rfl
  apply follows_of_sent P setup txs hR (by rw [hV]; rfl)
  · rw [hrec]
    generalize VV.rewardMsgs (VV.history P.H vc (verifierCalls V (log P setup txs))) = l at hall hnd
    have hmap : List.filterMap (fun x : VV.RewardMsg => if x.contract = vc.rewards then some (x.eventId, x.worker)
        else none) l = l.map (fun x => (x.eventId, x.worker)) := by
      rw [← List.filterMap_eq_map]
      apply List.filterMap_congr
      intro x hx
      rw [if_pos (hall x hx)]
      rfl
    rw [hmap, List.nodup_map_iff_inj_on hnd]
    intro x hx y hy he
    have h1 := hall x hx
    have h2 := hall y hy
    obtain ⟨_, _, _⟩ := x
    obtain ⟨_, _, _⟩ := y
    simp only [Prod.mk.injEq] at he h1 h2
    rw [h1, h2, he.1, he.2]
  · intro ev a
    rw [hrec, List.mem_filterMap]
    constructor
    · rintro ⟨x, hx, he⟩
      obtain ⟨id, sp, a', rfl, h1, h2, h3⟩ := (hmem x).mp hx
      simp only [if_true, Option.some.injEq, Prod.mk.injEq] at he
      obtain ⟨rfl, rfl⟩ := he
      exact ⟨id, rfl, by simp [agreedIn, h1, h2, h3]⟩
    · rintro ⟨id, rfl, hs⟩
      unfold agreedIn at hs
      split at hs
      · rename_i sp h1
        simp only [decide_eq_true_eq] at hs
        exact ⟨⟨vc.rewards, showNat id, a⟩, (hmem _).mpr ⟨id, sp, a, rfl, h1, hs.1, hs.2⟩, by simp⟩
      · simp at hs

/-! ### A concrete history -/

/-- In the history of `Example.lean`, session 1 was signed by workers 5 and 7, and workers 5 and 6 voted with the
consensus of poll 1, which was ended; they are due one half of the 1000 coins of each pool. -/
example : exSetup 18 = some (.multisig ⟨1, 11, 5⟩) ∧ exSetup 12 = some (.verifier exVerifier) ∧
    exSetup 11 = some (.rewards ⟨1, "axl".toList⟩ ⟨100, 1000, ⟨1, 2⟩⟩ 1) ∧ InOrder exTxs ∧
    ((worldAfter exP exSetup exTxs 18).any fun
      | .multisig m => decide ([5, 6, 7].map (signedFor m 1) = [true, false, true])
      | _ => false) = true ∧
    ((worldAfter exP exSetup exTxs 12).any fun
      | .verifier v => decide ([5, 6, 7].map (agreedIn v 1) = [true, true, false])
      | _ => false) = true ∧
    ((worldAfter exP exSetup exTxs 11).any fun
      | .rewards s => decide ([5, 6, 7].map (fun a => Rewards.due s 18 a 0) = [500, 0, 500] ∧
          [5, 6, 7].map (fun a => Rewards.due s 12 a 0) = [500, 500, 0] ∧
          s.events (showNat 1, 18) = some 0 ∧ s.events (showNat 1, 12) = some 0)
      | _ => false) = true := by
  refine ⟨rfl, rfl, rfl, by unfold InOrder; decide +kernel, by decide +kernel, by decide +kernel, by decide +kernel⟩

end Amp.Chain
