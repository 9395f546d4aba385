import Verif.Wire.SignedProps
import Verif.Wire.CarryExample

/-!
# An example for C114: a session, its signature, and the proof, in texts
-/

namespace Amp.Wire

open Amp.Chain (Entry exP exTx svc eth sui)

theorem e2e_upTo : e2eSteps = e2eUpTo 14 := by
  have h := upTo_split 14
  rw [show e2eTxs.drop 14 = [] from rfl, List.map_nil, List.append_nil] at h
  exact h

/-- the sessions announced by the multisig contract -/
def e2eSessions (l : List Entry) : List (Nat × Str × List (Addr × Multisig.PublicKey) × Encoding.Bytes × Str) :=
  l.flatMap (fun e => if e.p.target = 18 then
    match e.act with
    | .multisig _ r => r.events.filterMap (fun ev => match ev with
      | .signingStarted sid wid keys digest chain => some (sid, wid, keys, digest, chain)
      | _ => none)
    | _ => [] else [])

theorem e2e_announced_of {l : List Entry} {sid : Nat} {wid : Str} {keys : List (Addr × Multisig.PublicKey)}
    {digest : Encoding.Bytes} {chain : Str} (h : (sid, wid, keys, digest, chain) ∈ e2eSessions l) :
    Chain.AnnouncedAt l 18 sid wid keys digest chain := by
  obtain ⟨e, he, h⟩ := List.mem_flatMap.mp h
  split at h
  · rename_i ht
    split at h
    · rename_i c r hact
      obtain ⟨ev, hev, hx⟩ := List.mem_filterMap.mp h
      split at hx
      · simp only [Option.some.injEq, Prod.mk.injEq] at hx
        obtain ⟨rfl, rfl, rfl, rfl, rfl⟩ := hx
        exact ⟨e, he, c, r, ht, hact, hev⟩
      · cases hx
    · cases h
  · cases h

/-- what is signed in the session -/
def e2eDigest : Encoding.Bytes := ((e2eSessions e2eCalls).head?.map (fun x => x.2.2.2.1)).getD []

theorem e2e_session : (1, Prover.workerSetId exP.X e2eSet, [((5 : Addr), Multisig.PublicKey.ecdsa (List.replicate 33 5))], e2eDigest, sui) ∈
    e2eSessions (Chain.deployedLog exP e2ePlain) := by
  have key : (e2eSessions (Chain.deployedLog exP e2ePlain)).any (fun x => decide (x.1 = 1 ∧ x.2.1 = Prover.workerSetId exP.X e2eSet ∧
      x.2.2.1 = [((5 : Addr), Multisig.PublicKey.ecdsa (List.replicate 33 5))] ∧ x.2.2.2.1 = e2eDigest ∧ x.2.2.2.2 = sui)) = true := by
    decide +kernel
  obtain ⟨⟨x1, x2, x3, x4, x5⟩, hx, h⟩ := List.any_eq_true.mp key
  obtain ⟨rfl, h2, rfl, h4, h5⟩ := of_decide_eq_true h
  have e : (1, Prover.workerSetId exP.X e2eSet, [((5 : Addr), Multisig.PublicKey.ecdsa (List.replicate 33 5))], e2eDigest, sui) =
      (1, x2, [((5 : Addr), Multisig.PublicKey.ecdsa (List.replicate 33 5))], x4, x5) := by rw [← h2, ← h4, ← h5]
  rw [e]
  exact hx

/-- the key manager of the worker -/
def e2eSigner : Ampd.Signing.Env := ⟨fun _ _ _ => some (List.replicate 64 5), true⟩

theorem e2e_signs : Signs exTexture exCurve 18 1 (Prover.workerSetId exP.X e2eSet) [(5, .ecdsa (List.replicate 33 5))] e2eDigest
    sui 5 (.submitSignature 1 (List.replicate 64 5)) := by
  have key : ((decodeEvent exTexture.finite (publishMultisig exTexture.T 18 (.signingStarted 1 (Prover.workerSetId exP.X e2eSet)
      [(5, .ecdsa (List.replicate 33 5))] e2eDigest sui))).any (fun e =>
        decide (⟨5, 18, .submitSignature 1 (List.replicate 64 5)⟩ ∈
          (Ampd.Signing.handle (Signing.deserSigning exTexture.T exCurve) ⟨5, 18⟩ e2eSigner (.abci e)).sent))) = true := by
    decide +kernel
  unfold Option.any at key
  split at key
  · rename_i e he
    refine ⟨e, e2eSigner, he, ?_, of_decide_eq_true key⟩
    intro x y z b hb
    obtain rfl : List.replicate 64 5 = b := Option.some.inj hb
    unfold IsBytes; decide
  · cases key

def e2eSignature : Chain.Tx := exTx 5 10 18 (.multisig (.submitSignature 1 (List.replicate 64 5)))

theorem e2e_signatureText : (written exTexture e2eSignature).msgs =
    [(18, [], (jsonMsg (.submitSignature 1 (List.replicate 64 5))).render)] := by
  show [(18, [], write exTexture (.multisig (.submitSignature 1 (List.replicate 64 5))))] = _
  refine congrArg (fun t => [((18 : Addr), ([] : List Registry.Coin), t)]) ?_
  exact congrArg Json.render (rfl : jsonOf exTexture.T exTexture.u (.multisig (.submitSignature 1 (List.replicate 64 5))) =
    jsonMsg (.submitSignature 1 (List.replicate 64 5)))

theorem e2e_signature_taken : TextTaken exTexture exP e2eSteps 5 18 (jsonMsg (.submitSignature 1 (List.replicate 64 5))).render 11 := by
  refine ⟨e2eUpTo 13, written exTexture e2eSignature, [], [], ?_, rfl, ?_, by decide, ?_⟩
  · rw [e2e_upTo]
    exact upTo_succ (n := 13) (tx := e2eSignature) rfl
  · rw [e2e_signatureText]
    exact List.mem_cons_self ..
  · have hin : InRange (written exTexture e2eSignature) := by
      have := upTo_range 14
      rw [upTo_succ (n := 13) (tx := e2eSignature) rfl] at this
      exact this (.tx (written exTexture e2eSignature)) (List.mem_append_right _ (List.mem_cons_self ..))
    have hm : meaning exTexture e2eSetup (written exTexture e2eSignature) = e2eSignature :=
      e2e_meaning (List.mem_of_getElem? (i := 13) rfl)
    have key : (match Chain.exec exP (Chain.worldAfter exP e2eSetup (Chain.succeeded exP (e2ePlainTo 13))) e2eSignature with
        | .ok _ => true
        | .error _ => false) = true := by decide +kernel
    split at key
    · rename_i x hx
      refine ⟨x, (exec_after ex_sound exP_bytes (e2eUpTo 13) (upTo_range 13) (upTo_apart 13) _ hin).mpr ?_⟩
      rw [upTo_setup, upTo_plain, hm]
      exact hx
    · cases key

/-- `C114_proved` applies: the signature of the worker completes the proof -/
example : ∃ b payload text, query exTexture exP (textDeployedWorld exTexture exP e2eSteps) 19
      ((UserQuestion.proof 1).json exTexture.T).render = some text ∧
    (UserQuestion.proof 1).readText exTexture text = some (.proof 1 ⟨[e2eMsg.ccId], b, .completed payload⟩) := by
  have key : (match Chain.shownBatch (Chain.deployedWorld exP e2ePlain) 19 1 with
      | some b => decide (b.messageIds = [e2eMsg.ccId] ∧
          1000 * (1 + b.data.commands.length + e2eSet.signers.length) + Prover.dataSize b.data < 2 ^ 31)
      | none => false) = true := by decide +kernel
  split at key
  · rename_i b hb
    obtain ⟨h1, h2⟩ := of_decide_eq_true key
    obtain ⟨payload, text, h3, h4⟩ := C114_proved ex_sound exP_octets exP_four e2eSteps e2e_range e2e_apart 19 Chain.exProver svc .ecdsa
      (by rw [e2e_setup]; rfl) ⟨1, 11, 5⟩ (by rw [e2e_setup]; rfl)
      (by rw [e2e_log]; exact Chain.setsDistinctAt_of (sets := [e2eSet]) (by decide +kernel) (by decide +kernel))
      1 e2eSet _ _ sui (by rw [e2e_log]; exact e2e_announced_of e2e_session)
      (by rw [e2e_world]; decide +kernel) b (by rw [e2e_world]; exact hb) (fun _ _ => trivial) (show Chain.exProver.destinationChainId ≤ u64Max by decide) h2 exCurve [5] (by decide)
      (by decide +kernel) (by
        intro a ha
        obtain rfl : a = 5 := by simpa using ha
        exact ⟨_, _, e2e_signs, e2e_signature_taken⟩)
    rw [h1] at h4
    exact ⟨_, payload, text, h3, h4⟩
  · cases key

end Amp.Wire
