import Verif.Wire.RequestProps

/-!
# C114, continued: the text of another request for the same proof
-/

namespace Amp.Wire

open Amp.Chain (Params Entry)
open Amp.Router (ChainName CCId Message)
open Amp.Multisig (WorkerSet)
open Amp.Prover (dataDigest batchId)

variable {G : Texture} {P : Params}

/-- C114, requests again: whoever sends the prover a text that asks for a proof of messages of which it already made a batch, without a
handover, gets a new session for this batch, by the current worker set: nothing is asked about workers or their keys. -/
theorem C114_again (hG : Sound G) (hX : Octets P.X) (h4 : FourIds P.X) (ts : List TextStep) (t : TextTx)
    (hb : ∀ s ∈ ts ++ [.tx t], StepInRange s) (ha : TextApart G (ts ++ [.tx t])) (Q : Addr) (pc : Prover.Config) (sv : Str)
    (kt : Multisig.KeyType) (hQ : textSetup G ts Q = some (.prover pc sv kt)) (mc : Multisig.Config)
    (hM : textSetup G ts pc.multisig = some (.multisig mc))
    (hd : Chain.SetsDistinctAt P (textDeployedLog G P ts) pc.multisig) (hroom : (textDeployedLog G P ts).length < u64Max)
    (funds : List Registry.Coin) (text : Str) (hmsgs : t.msgs = [(Q, funds, text)]) (ids : List CCId)
    (hread : readFor G .prover text = some (.prover (.constructProof ids))) (hgas : 1 ≤ t.gas)
    (msgs : List Message) (cur : WorkerSet) (hr : Chain.Ready (textDeployedWorld G P ts) Q pc ids msgs cur)
    (b : Prover.Batch) (hold : Chain.storedBatch (textDeployedWorld G P ts) Q (batchId P.X ids none) = some b) :
    ∃ sid digest reply, (∃ x, execText G P (textDeployedWorld G P ts) t = .ok x) ∧
      dataDigest P.X pc.encoder b.data = .ok digest ∧
      publishMultisig G.T pc.multisig (.signingStarted sid (Prover.workerSetId P.X cur) cur.pubKeys digest pc.chainName) ∈
        eventStream G.T (textDeployedLog G P (ts ++ [.tx t])) ∧
      query G P (textDeployedWorld G P (ts ++ [.tx t])) Q ((UserQuestion.proof sid).json G.T).render = some reply ∧
      (UserQuestion.proof sid).readText G reply = some (.proof sid ⟨b.messageIds, b.data, .pending⟩) := by
  have hbt : ∀ s ∈ ts, StepInRange s := fun s hs => hb s (List.mem_append_left _ hs)
  have hat := textApart_prefix ha
  have hin : InRange t := hb (.tx t) (by simp)
  obtain ⟨w1, w2, -, -, -⟩ := C105_history (P := P) hG hX.keccak ts hbt hat
  have hmeant : (meaning G (textSetup G ts) t).msgs = [(Q, funds, .prover (.constructProof ids))] := by
    unfold meaning
    rw [hmsgs]
    simp only [List.map_cons, List.map_nil]
    congr 3
    unfold meant
    rw [hQ]
    change (match readFor G .prover text with | some m => m | none => noise .prover) = _
    rw [hread]
  have hs : textSetup G ts t.sender = none := by
    by_contra h
    refine (ha t (by simp) t.sender ?_).1 rfl
    cases hk : textSetup G ts t.sender with
    | none => exact absurd hk h
    | some k => rw [textSetup_mono ts _ hk]; simp
  rw [w1] at hr hold
  obtain ⟨w', es, sid, digest, hx, ⟨e, he, c, r, g1, g2, g3⟩, h5, h6, h7, h8, -⟩ :=
    Chain.C82_again P (textSetup G ts) (Chain.succeeded P (steps G ts)) Q pc sv kt hQ mc hM (setsDistinct_blind w2 hd) (by
        have := congrArg List.length w2
        simp only [List.length_map] at this
        omega) (meaning G (textSetup G ts) t) ids ⟨⟨funds, hmeant⟩, hs, hgas⟩ msgs cur hr b hold
  obtain ⟨hset, hsucc, v1, v2⟩ := deployed_snoc hG hX.keccak ts t hb ha hx
  simp only at v1 v2
  obtain ⟨e', he', hbe⟩ : ∃ e' ∈ textDeployedLog G P (ts ++ [.tx t]), e'.blind = e.blind := by
    have : e.blind ∈ (textDeployedLog G P (ts ++ [.tx t])).map Entry.blind := by
      rw [v2]; exact List.mem_map_of_mem (List.mem_append_right _ he)
    exact List.mem_map.mp this
  obtain ⟨b1, b2⟩ := Chain.blind_multisig hbe g2
  have hann : Chain.AnnouncedAt (textDeployedLog G P (ts ++ [.tx t])) pc.multisig sid (Prover.workerSetId P.X cur) cur.pubKeys digest
      pc.chainName := ⟨e', he', c, r, by rw [b1]; exact g1, b2, g3⟩
  have hfits := multisig_event_fits hG hX.keccak _ hb ha (M := pc.multisig) (mc := mc) (by rw [hset]; exact hM)
    (announced_blind (C105_history (P := P) hG hX.keccak _ hb ha).2.1 hann)
  rw [← v1] at h6
  obtain ⟨reply, q1, q2⟩ := asked_proof hG hX h4 _ hb Q sid hfits.1 _ h6
  refine ⟨sid, digest, reply, ⟨_, (exec_after hG hX.keccak ts hbt hat t hin).mpr hx⟩, h5, ?_, q1, q2⟩
  unfold eventStream
  refine List.mem_flatMap.mpr ⟨e', he', ?_⟩
  rw [b2, b1, g1]
  exact List.mem_map_of_mem g3

end Amp.Wire
