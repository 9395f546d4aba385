import Verif.Chain.SignedLemmas
import Verif.Chain.RecordProps
import Verif.Chain.JoinLemmas

/-!
# When a transaction with a signature succeeds
-/

namespace Amp.Chain

open Amp.Router (ChainName)
open Amp.Multisig (WorkerSet)
open Amp.Ampd.Signing (totalWeight)

variable {P : Params} {setup : Setup} {l : List Entry} {w : World} {mc : Multisig.Config}

/-- the session was completed, and the time for late signatures is over at the height -/
def SessionOver (w : World) (M : Addr) (sid height : Nat) : Prop :=
  ∃ s se c, w M = some (.multisig s) ∧ s.sessions sid = some se ∧ se.state = .completed c ∧
    (u64Max < c + s.config.gracePeriod ∨ c + s.config.gracePeriod < height)

theorem trace_signedAt {M : Addr} (hi : Inv P setup l w) (hM : setup M = some (.multisig mc)) {sid : Nat} {a : Addr} {b : Multisig.Bin}
    (h : Multisig.Submitted (Multisig.trace P.C (Prover.workerSetId P.X) mc (multisigCalls M l)) sid a b) :
    SignedAt l M sid a := by
  obtain ⟨st, hst, hs, hm⟩ := h
  have hmat := hi.acts M _ hM
  unfold Matches at hmat
  simp only at hmat
  have : Act.multisig st.call st.resp ∈ actsAt M l := by
    rw [hmat]
    refine List.mem_map.mpr ⟨(st.call, st.resp), ?_, rfl⟩
    rw [outs_eq_steps]
    exact List.mem_map.mpr ⟨st, hst, rfl⟩
  obtain ⟨e, he, ht, ha⟩ := mem_actsAt this
  exact ⟨e, he, st.call, st.resp, b, ht, ha, hs, hm⟩

/-- a valid signature of a member succeeds, unless there is one of this member, or the session is over -/
theorem signature_taken (P : Params) (setup : Setup) (txs : List Tx) (Q : Addr) (pc : Prover.Config) (sv : Str)
    (kt : Multisig.KeyType) (hQ : setup Q = some (.prover pc sv kt)) (mc : Multisig.Config)
    (hM : setup pc.multisig = some (.multisig mc)) (hd : SetsDistinctAt P (log P setup txs) pc.multisig) (sid : Nat) (ws : WorkerSet)
    (keys : List (Addr × Multisig.PublicKey)) (digest : Encoding.Bytes) (chain : ChainName)
    (hann : AnnouncedAt (log P setup txs) pc.multisig sid (Prover.workerSetId P.X ws) keys digest chain)
    (hreg : registeredSet (worldAfter P setup txs) pc.multisig (Prover.workerSetId P.X ws) = some ws)
    (hfit : totalWeight ws ≤ u256Max) (tx : Tx) (hR : RecordsAt P setup txs mc.rewards tx.block.height 2)
    (pk : Multisig.PublicKey) (hpk : (tx.sender, pk) ∈ keys) (sig : Multisig.Signature) (hv : Multisig.Valid P.C digest pk sig)
    (funds : List Registry.Coin) (htx : tx.msgs = [(pc.multisig, funds, .multisig (.submitSignature sid sig.bytes))])
    (hs : setup tx.sender = none) (hgas : 2 ≤ tx.gas) :
    (∃ x, exec P (worldAfter P setup txs) tx = .ok x) ∨ SignedAt (log P setup txs) pc.multisig sid tx.sender ∨
      SessionOver (worldAfter P setup txs) pc.multisig sid tx.block.height := by
  have hi := inv P setup txs
  obtain ⟨ops, hp⟩ := pair P setup txs hQ hM
  have hnc := setsDistinct hi hp hM hd
  unfold Prover.SetsDistinct at hnc
  rw [hp.received] at hnc
  have hw := hi.multisig_state hM
  obtain ⟨se, ws', k1, k2, k3, k4, k5, k6⟩ := Ampd.Signing.announced_state P.C (Prover.workerSetId P.X) mc _ hnc sid _ keys
    digest chain (announcedAt_trace hi hM hann)
  have hws : ws' = ws := by
    unfold registeredSet at hreg
    rw [hw] at hreg
    have : some ws' = some ws := k4.symm.trans hreg
    simpa using this
  subst hws
  obtain ⟨sg, hsg, hkey⟩ : ∃ sg, ws'.signers.get? tx.sender = some sg ∧ sg.pubKey = pk := by
    rw [k5] at hpk
    unfold Multisig.WorkerSet.pubKeys at hpk
    obtain ⟨e, he, heq⟩ := List.mem_map.mp hpk
    simp only [Prod.mk.injEq] at heq
    exact ⟨e.2, by rw [← heq.1]; exact OMap.get?_of_mem k6 he, heq.2⟩
  cases hrec : ((Multisig.stateAfter P.C (Prover.workerSetId P.X) mc (multisigCalls pc.multisig (log P setup txs))).signatures sid).get?
      tx.sender with
  | some sig' =>
    obtain ⟨hb, -⟩ := Multisig.invariants P.C (Prover.workerSetId P.X) mc (multisigCalls pc.multisig (log P setup txs))
    obtain ⟨hsub, -⟩ := hb.sig sid _ sig' hrec
    exact Or.inr (Or.inl (trace_signedAt hi hM hsub))
  | none =>
    by_cases hopen : Multisig.Open se.state (Multisig.stateAfter P.C (Prover.workerSetId P.X) mc
        (multisigCalls pc.multisig (log P setup txs))).config.gracePeriod tx.block.height
    · refine Or.inl ((C83_signature P setup txs pc.multisig mc hM tx hR funds sid sig.bytes htx hs hgas).1.mpr ?_)
      obtain ⟨s', r, hx⟩ := (Multisig.C47_acceptance P.C (Prover.workerSetId P.X) mc _ hnc tx.sender tx.block.height sid sig.bytes).1.mpr
        ⟨se, ws', sg, sig, k1, by rw [k2]; exact k4, hsg, hrec, rfl, by rw [k3, hkey]; exact hv, hopen,
          Nat.le_trans (Ampd.Signing.recordedWeight_room hsg hrec) hfit⟩
      exact ⟨_, hx⟩
    · refine Or.inr (Or.inr ?_)
      cases hst : se.state with
      | pending => exact absurd (Or.inl hst) hopen
      | completed c =>
        refine ⟨_, se, c, hw, k1, hst, ?_⟩
        by_contra hno
        refine hopen (Or.inr ⟨c, hst, ?_, ?_⟩) <;> omega

end Amp.Chain
