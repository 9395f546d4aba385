import Verif.Chain.ProofCompleted

/-!
# Sessions with enough accepted signatures have proofs

As `C82_completed`, for signatures that the multisig contract accepted.
-/

namespace Amp.Chain

open Amp.Router (ChainName CCId Message)
open Amp.Multisig (WorkerSet)
open Amp.Prover (Sys SysResp sysAfter sysLog sysExec sysInit IsBatch dataDigest Addressable Nameable ChainIdFits
  dataSize SetEncodable)
open Amp.Ampd.Signing (weightIn totalWeight)

variable {P : Params} {setup : Setup} {l l₁ l₂ : List Entry} {w w' : World} {R Q : Addr} {e : Entry}
  {pc : Prover.Config} {sv : Str} {kt : Multisig.KeyType} {mc : Multisig.Config}

/-- the multisig contract at `M` took a signature of `a` for the session -/
def SignedAt (l : List Entry) (M : Addr) (sid : Nat) (a : Addr) : Prop :=
  ∃ e ∈ l, ∃ c r b, e.p.target = M ∧ e.act = .multisig c r ∧ c.sender = a ∧ c.msg = .submitSignature sid b

theorem signedAt_trace {M : Addr} (hi : Inv P setup l w) (hM : setup M = some (.multisig mc)) {sid : Nat} {a : Addr}
    (h : SignedAt l M sid a) :
    ∃ b, Multisig.Submitted (Multisig.trace P.C (Prover.workerSetId P.X) mc (multisigCalls M l)) sid a b := by
  obtain ⟨e, he, c, r, b, ht, ha, hs, hm⟩ := h
  have hmat := hi.acts M _ hM
  have hmem : e.act ∈ actsAt M l := by
    unfold actsAt
    exact List.mem_map_of_mem (List.mem_filter.mpr ⟨he, by simpa using ht⟩)
  unfold Matches at hmat
  simp only at hmat
  rw [hmat] at hmem
  obtain ⟨y, hy, hya⟩ := List.mem_map.mp hmem
  rw [ha] at hya
  simp only [Act.multisig.injEq] at hya
  rw [outs_eq_steps] at hy
  obtain ⟨st, hst, rfl⟩ := List.mem_map.mp hy
  obtain ⟨rfl, rfl⟩ := hya
  exact ⟨b, st, hst, hs, hm⟩

/-- recorded signatures of members that reach the threshold complete the session -/
theorem signed_completes (C : Multisig.Crypto) (idOf : WorkerSet → Str) (cfg : Multisig.Config) (cs : List Multisig.Call)
    (hnc : Multisig.NoCollision idOf (Multisig.trace C idOf cfg cs)) (id : Nat) (se : Multisig.Session) (ws : WorkerSet)
    (h1 : (Multisig.stateAfter C idOf cfg cs).sessions id = some se)
    (h2 : (Multisig.stateAfter C idOf cfg cs).workerSets se.workerSetId = some ws) (S : List Addr) (hS : S ≠ [])
    (hth : ws.threshold ≤ weightIn ws S) (hsub : ∀ a ∈ S, ∃ b, Multisig.Submitted (Multisig.trace C idOf cfg cs) id a b) :
    ∃ height, se.state = .completed height := by
  have hrec : ∀ a ∈ S, ∃ sig, ((Multisig.stateAfter C idOf cfg cs).signatures id).get? a = some sig := by
    intro a ha
    obtain ⟨b, hb⟩ := hsub a ha
    obtain ⟨sig, hs, -⟩ := Multisig.submitted_recorded C idOf cfg cs id a b hb
    exact ⟨sig, hs⟩
  have hne : (Multisig.stateAfter C idOf cfg cs).signatures id ≠ [] := by
    obtain ⟨a, t, rfl⟩ := List.exists_cons_of_ne_nil hS
    obtain ⟨sig, hsig⟩ := hrec a (List.mem_cons_self ..)
    intro h0
    rw [h0] at hsig
    simp at hsig
  have hge : weightIn ws S ≤ Multisig.recordedWeight (Multisig.stateAfter C idOf cfg cs) id ws := by
    rw [Ampd.Signing.recordedWeight_eq]
    unfold weightIn
    generalize ws.signers = l
    induction l with
    | nil => simp
    | cons e t ih =>
      simp only [List.map_cons, List.sum_cons]
      by_cases he : e.1 ∈ S
      · rw [List.filter_cons_of_pos (by simpa using he)]
        obtain ⟨sig, hsig⟩ := hrec e.1 he
        have h0 : Ampd.Signing.partOf (Multisig.stateAfter C idOf cfg cs) id e = e.2.weight := by
          simp only [Ampd.Signing.partOf, hsig]
        simp only [List.map_cons, List.sum_cons]
        omega
      · rw [List.filter_cons_of_neg (by simpa using he)]
        omega
  exact Multisig.C46_no_delay C idOf cfg cs hnc id se ws h1 h2 hne (Nat.le_trans hth hge)

/-- A session of the prover, with signatures of members that reach the threshold, has a completed proof. -/
theorem signed_proof (P : Params) (setup : Setup) (txs : List Tx) (Q : Addr) (pc : Prover.Config) (sv : Str)
    (kt : Multisig.KeyType) (hQ : setup Q = some (.prover pc sv kt)) (n d : Nat)
    (hth : Std.MajorityThreshold.ofPair n d = .ok pc.signingThreshold) (mc : Multisig.Config)
    (hM : setup pc.multisig = some (.multisig mc)) (hd : SetsDistinctAt P (log P setup txs) pc.multisig) (sid : Nat) (ws : WorkerSet)
    (keys : List (Addr × Multisig.PublicKey)) (digest : Encoding.Bytes) (chain : ChainName)
    (hann : AnnouncedAt (log P setup txs) pc.multisig sid (Prover.workerSetId P.X ws) keys digest chain)
    (hreg : registeredSet (worldAfter P setup txs) pc.multisig (Prover.workerSetId P.X ws) = some ws)
    (b : Prover.Batch) (hown : shownBatch (worldAfter P setup txs) Q sid = some b)
    (hkeys : ∀ e ∈ ws.signers, Nameable P.X pc.encoder e.2.pubKey) (hc : ChainIdFits pc.encoder pc.destinationChainId)
    (hsize : 1000 * (1 + b.data.commands.length + ws.signers.length) + dataSize b.data < 2 ^ 31)
    (S : List Addr) (hS : S ≠ []) (hq : ws.threshold ≤ weightIn ws S)
    (hsub : ∀ a ∈ S, SignedAt (log P setup txs) pc.multisig sid a) :
    ∃ payload, askProof P (worldAfter P setup txs) Q sid = .ok ⟨b.messageIds, b.data, .completed payload⟩ := by
  have hi := inv P setup txs
  obtain ⟨ops, hp⟩ := pair P setup txs hQ hM
  obtain ⟨hms, _, hregs⟩ := Prover.sys_multisig (X := P.X) (C := P.C) (self := Q) (cfg := pc) (mcfg := mc) ops
  have hdist := setsDistinct hi hp hM hd
  have hnc := hdist
  unfold Prover.SetsDistinct at hnc
  rw [hp.received] at hnc hms
  have hb : ∃ bid, (sysAfter P.X P.C Q pc mc ops).prover.sessionBatch sid = some bid ∧
      (sysAfter P.X P.C Q pc mc ops).prover.batches bid = some b := by
    unfold shownBatch at hown
    rw [hp.prover] at hown
    simp only at hown
    cases h : (sysAfter P.X P.C Q pc mc ops).prover.sessionBatch sid with
    | none => rw [h] at hown; cases hown
    | some bid => rw [h] at hown; exact ⟨bid, rfl, hown⟩
  obtain ⟨bid, hb2, hb⟩ := hb
  obtain ⟨st, hst, b0, cur, digest', se, hop, hse, hmsg, hwid⟩ := Prover.C58_session P.X P.C Q pc mc ops sid bid hb2
  obtain ⟨se', ws', k1, k2, _, k4, _, _⟩ := Ampd.Signing.announced_state P.C (Prover.workerSetId P.X) mc _ hnc sid _ keys
    digest chain (announcedAt_trace hi hM hann)
  rw [hms, k1] at hse
  simp only [Option.some.injEq] at hse
  subst hse
  have hwsEnd : Multisig.getWorkerSet (Multisig.stateAfter P.C (Prover.workerSetId P.X) mc
      (multisigCalls pc.multisig (log P setup txs))) (Prover.workerSetId P.X ws) = some ws := by
    unfold registeredSet at hreg
    rw [hp.multisig, hms] at hreg
    exact hreg
  have hcurEnd := (Multisig.C49_stable P.C (Prover.workerSetId P.X) mc _ hdist _ cur).mpr
    ⟨rfl, hregs st hst cur hop.current⟩
  rw [hp.received, ← hwid, k2] at hcurEnd
  have hcw : cur = ws := by
    have : some cur = some ws := hcurEnd.symm.trans hwsEnd
    simpa using this
  subst hcw
  have hbuilt : cur ∈ Prover.builtSets pc (sysLog P.X P.C Q pc mc ops) := by
    obtain ⟨⟨o1, o2, ho, hpre⟩, _⟩ := steps_mem _ hst
    have := (current_built P.X P.C Q pc mc o1).1 cur (by unfold sysAfter; rw [← hpre]; exact hop.current)
    rw [ho]
    unfold sysLog at this ⊢
    rw [steps_append]
    unfold Prover.builtSets at this ⊢
    rw [List.filterMap_append]
    exact List.mem_append_left _ this
  have hfit := fits_built hi hp hth hbuilt
  have hsum : (cur.signers.map (fun e => e.2.weight)).sum = cur.signers.length := sum_ones hfit.ones
  have hmax : cur.signers.length ≤ Prover.maxWeight pc.encoder := by
    unfold Prover.maxWeight
    cases pc.encoder <;> simp only [u256Max, u128Max] <;> omega
  have hmax1 : 1 ≤ Prover.maxWeight pc.encoder := by
    unfold Prover.maxWeight
    cases pc.encoder <;> simp [u256Max, u128Max]
  have htot : (cur.signers.map (fun e => e.2.weight)).sum ≤ u256Max := by rw [hsum]; unfold u256Max; omega
  obtain ⟨hgt, hst'⟩ := signed_completes P.C (Prover.workerSetId P.X) mc _ hnc sid se' cur k1 (by rw [k2]; exact hwsEnd) S hS hq
    (fun a ha => signedAt_trace hi hM (hsub a ha))
  obtain ⟨x, _, o, msgs, hmade⟩ := (made_of_post P.X P.C Q pc mc ops).1 bid b hb
  obtain ⟨payload, hpay⟩ := Prover.completed_total (X := P.X) (C := P.C) (self := Q) hdist hb2 hb
    (Prover.isBatch_build hmade.build).1 hc (by rw [hms]; exact k1) hst' (by rw [hms, k2]; exact hwsEnd)
    ⟨hkeys, fun e he => by rw [hfit.ones e he]; exact hmax1, Nat.le_trans hfit.threshold hmax⟩ hfit.keys htot hsize
  exact ⟨payload, by rw [askProof_eq hp]; exact hpay⟩

end Amp.Chain
