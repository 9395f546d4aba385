import Verif.Wire.RequestProps
import Verif.Wire.SignedExample

/-!
# Concrete cases for C114: the request for a proof, and a signature
-/

namespace Amp.Wire

open Amp.Chain (Entry exP exTx svc eth sui)

/-! ### The request -/

def e2eRequest : Chain.Tx := exTx 9 9 19 (.prover (.constructProof [e2eMsg.ccId]))

/-- the workers of `sui` -/
def e2eWorkers : List Registry.Worker := [⟨5, .bonded 10, .authorized, svc⟩]

set_option maxRecDepth 10000 in
theorem e2e_ready : Chain.Ready (Chain.deployedWorld exP (e2ePlainTo 12)) 19 Chain.exProver [e2eMsg.ccId] [e2eMsg] e2eSet := by
  refine ⟨by decide +kernel, ?_, by decide +kernel, Chain.mayAsk_of (by decide +kernel)⟩
  intro m hm
  obtain rfl : m = e2eMsg := by simpa using hm
  rfl

theorem e2e_buildable : Chain.Buildable exP (Chain.deployedWorld exP (e2ePlainTo 12)) 19 Chain.exProver svc .ecdsa 9 [e2eMsg]
    e2eSet e2eWorkers := by
  refine ⟨by decide +kernel, by decide, ?_, ?_, ?_, show Chain.exProver.destinationChainId ≤ u64Max by decide, by decide +kernel⟩
  · intro x hx
    have key : e2eWorkers.all (fun x => (Chain.answer (Chain.askKey (Chain.deployedWorld exP (e2ePlainTo 12)) 18 .ecdsa
      x.address)).isSome) = true := by decide +kernel
    have := List.all_eq_true.mp key x hx
    change ∃ k, Chain.askKey (Chain.deployedWorld exP (e2ePlainTo 12)) 18 .ecdsa x.address = .ok k
    cases h : Chain.askKey (Chain.deployedWorld exP (e2ePlainTo 12)) 18 .ecdsa x.address with
    | error e => rw [h] at this; simp [Chain.answer] at this
    | ok k => exact ⟨k, rfl⟩
  · intro m hm
    obtain rfl : m = e2eMsg := by simpa using hm
    exact ⟨_, rfl, by decide +kernel⟩
  · intro new _ _
    refine ⟨?_, fun _ _ => trivial⟩
    intro n hn
    have : Chain.pendingSet (Chain.deployedWorld exP (e2ePlainTo 12)) 19 = none := by decide +kernel
    rw [this] at hn
    cases hn

/-- `C114_requested` applies -/
example : ∃ b digest reply sid, publishMultisig exTexture.T 18 (.signingStarted sid (Prover.workerSetId exP.X e2eSet) e2eSet.pubKeys
      digest sui) ∈ eventStream exTexture.T (textDeployedLog exTexture exP (e2eUpTo 13)) ∧
    query exTexture exP (textDeployedWorld exTexture exP (e2eUpTo 13)) 19 ((UserQuestion.proof sid).json exTexture.T).render =
      some reply ∧
    (UserQuestion.proof sid).readText exTexture reply = some (.proof sid ⟨[e2eMsg.ccId], b, .pending⟩) := by
  have hsucc := upTo_succ (n := 12) (tx := e2eRequest) rfl
  obtain ⟨new, b, sid, digest, reply, -, -, h2, -, -, h5, -, -, h8, h9⟩ := C114_requested (P := exP) ex_sound exP_octets exP_four
    (e2eUpTo 12) (written exTexture e2eRequest) (by rw [← hsucc]; exact upTo_range 13) (by rw [← hsucc]; exact upTo_apart 13) 19
    Chain.exProver svc .ecdsa (by rw [upTo_setup]; rfl) ⟨1, 11, 5⟩ (by rw [upTo_setup]; rfl)
    (by rw [upTo_log]; exact Chain.setsDistinctAt_of (sets := [e2eSet]) (by decide +kernel) (by decide +kernel))
    (by rw [upTo_log]; decide +kernel) [] (write exTexture (.prover (.constructProof [e2eMsg.ccId]))) rfl [e2eMsg.ccId]
    (by decide +kernel) (by decide) [e2eMsg] e2eSet (by rw [upTo_world]; exact e2e_ready) (by rw [upTo_world]; decide +kernel)
    e2eWorkers (by rw [upTo_world]; exact e2e_buildable)
  rw [← hsucc] at h5 h8
  rw [h2.ids] at h9
  exact ⟨b.data, digest, reply, sid, h5, h8, h9⟩

/-! ### The signature -/

theorem e2e_records : Chain.RecordsAt exP e2eSetup (Chain.succeeded exP (e2ePlainTo 13)) 11 10 2 := by
  refine ⟨⟨⟨1, "axl".toList⟩, ⟨100, 1000, ⟨1, 2⟩⟩, 1, rfl, by decide, by decide, ?_⟩, ?_, ?_, ?_, by decide, by decide +kernel⟩
  · have key : (Chain.succeeded exP (e2ePlainTo 13)).all (fun tx => decide (1 ≤ tx.block.height)) = true := by decide +kernel
    exact fun tx htx => of_decide_eq_true (List.all_eq_true.mp key tx htx)
  · have key : (Chain.succeeded exP (e2ePlainTo 13)).map (fun tx => tx.block.height) = [1, 1, 1, 2, 2, 2, 2, 2, 3, 4, 5, 7, 9] := by
      decide +kernel
    unfold Chain.InOrder
    rw [key]
    decide
  · have key : (Chain.succeeded exP (e2ePlainTo 13)).all (fun tx => decide (tx.block.height ≤ 10)) = true := by decide +kernel
    exact fun tx htx => of_decide_eq_true (List.all_eq_true.mp key tx htx)
  · intro e he ht q hq
    have key : (upToCalls 13).all (fun e => match e.p.msg with
        | .rewards (.updateParams q) => decide (0 < q.duration)
        | _ => true) = true := by decide +kernel
    have := List.all_eq_true.mp key e he
    rw [hq] at this
    exact of_decide_eq_true this

theorem e2e_session13 : Chain.AnnouncedAt (Chain.deployedLog exP (e2ePlainTo 13)) 18 1 (Prover.workerSetId exP.X e2eSet)
    [((5 : Addr), Multisig.PublicKey.ecdsa (List.replicate 33 5))] e2eDigest sui := by
  have key : (e2eSessions (Chain.deployedLog exP (e2ePlainTo 13))).any (fun x => decide (x.1 = 1 ∧
      x.2.1 = Prover.workerSetId exP.X e2eSet ∧ x.2.2.1 = [((5 : Addr), Multisig.PublicKey.ecdsa (List.replicate 33 5))] ∧
      x.2.2.2.1 = e2eDigest ∧ x.2.2.2.2 = sui)) = true := by
    decide +kernel
  obtain ⟨⟨x1, x2, x3, x4, x5⟩, hx, h⟩ := List.any_eq_true.mp key
  obtain ⟨rfl, h2, rfl, h4, h5⟩ := of_decide_eq_true h
  have h := e2e_announced_of hx
  rw [show x2 = _ from h2, show x4 = _ from h4, show x5 = _ from h5] at h
  exact h

/-- `C114_signed` applies: the signature is taken -/
example : ∃ x, execText exTexture exP (textDeployedWorld exTexture exP (e2eUpTo 13)) (written exTexture e2eSignature) = .ok x := by
  have hsucc := upTo_succ (n := 13) (tx := e2eSignature) rfl
  refine (C114_signed (P := exP) ex_sound exP_bytes (e2eUpTo 13) (written exTexture e2eSignature)
    (by rw [← hsucc]; exact upTo_range 14) (by rw [← hsucc]; exact upTo_apart 14) 19 Chain.exProver svc .ecdsa
    (by rw [upTo_setup]; rfl) ⟨1, 11, 5⟩ (by rw [upTo_setup]; rfl)
    (by rw [upTo_log]; exact Chain.setsDistinctAt_of (sets := [e2eSet]) (by decide +kernel) (by decide +kernel)) 1 e2eSet
    [((5 : Addr), Multisig.PublicKey.ecdsa (List.replicate 33 5))] e2eDigest sui
    (by rw [upTo_log]; exact e2e_session13) (by rw [upTo_world]; decide +kernel) (by decide +kernel)
    (by rw [upTo_setup, upTo_plain]; exact e2e_records) (.ecdsa (List.replicate 33 5)) (List.mem_cons_self ..) (.ecdsa (List.replicate 64 5))
    (by unfold IsBytes; decide) (show _ ∧ _ from ⟨by decide, by decide +kernel⟩) [] e2e_signatureText (by decide)).resolve_right ?_
  rintro (⟨e, he, c, r, b, ht, hact, hs, hm⟩ | ⟨s, se, c, hw, hse, hst, -⟩)
  · have key : (textDeployedLog exTexture exP (e2eUpTo 13)).all (fun e => match e.act with
        | .multisig c _ => match c.msg with
          | .submitSignature _ _ => false
          | _ => true
        | _ => true) = true := by
      rw [upTo_log]; decide +kernel
    have := List.all_eq_true.mp key e he
    rw [hact] at this
    simp only [hm] at this
    cases this
  · rw [upTo_world] at hw
    change Chain.deployedWorld exP (e2ePlainTo 13) 18 = _ at hw
    have key : (match Chain.deployedWorld exP (e2ePlainTo 13) 18 with
        | some (.multisig s) => match s.sessions 1 with
          | some se => decide (se.state = .pending)
          | none => true
        | _ => true) = true := by decide +kernel
    rw [hw] at key
    simp only [hse] at key
    rw [of_decide_eq_true key] at hst
    cases hst

end Amp.Wire
