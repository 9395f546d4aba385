import Verif.Wire.AgainProps
import Verif.Wire.RotateExample

/-!
# A concrete case for `C114_again`: the request of the history is sent twice
-/

namespace Amp.Wire

open Amp.Chain (exP exTx svc sui)

theorem again_mem : TextStep.tx (written exTexture e2eRequest) ∈ e2eUpTo 13 := by
  rw [upTo_succ (n := 12) (tx := e2eRequest) rfl]
  exact List.mem_append_right _ (List.mem_singleton.mpr rfl)

theorem again_range : ∀ s ∈ e2eUpTo 13 ++ [.tx (written exTexture e2eRequest)], StepInRange s := by
  intro s hs
  rcases List.mem_append.mp hs with hs | hs
  · exact upTo_range 13 s hs
  · rw [List.mem_singleton.mp hs]
    exact upTo_range 13 _ again_mem

theorem again_apart : TextApart exTexture (e2eUpTo 13 ++ [.tx (written exTexture e2eRequest)]) := by
  intro t ht a hne
  have hset : textSetup exTexture (e2eUpTo 13 ++ [.tx (written exTexture e2eRequest)]) = textSetup exTexture (e2eUpTo 13) := by
    unfold textSetup
    rw [List.filterMap_append]
    rw [show [TextStep.tx (written exTexture e2eRequest)].filterMap (founding exTexture) = [] from rfl, List.append_nil]
  rw [hset] at hne
  refine upTo_apart 13 t ?_ a hne
  rcases List.mem_append.mp ht with ht | ht
  · exact ht
  · rw [List.mem_singleton.mp ht]
    exact again_mem

set_option maxRecDepth 10000 in
theorem again_ready : Chain.Ready (Chain.deployedWorld exP (e2ePlainTo 13)) 19 Chain.exProver [e2eMsg.ccId] [e2eMsg] e2eSet := by
  refine ⟨by decide +kernel, ?_, by decide +kernel, Chain.mayAsk_of (by decide +kernel)⟩
  intro m hm
  obtain rfl : m = e2eMsg := by simpa using hm
  rfl

/-- `C114_again` applies -/
example : ∃ b sid reply, query exTexture exP (textDeployedWorld exTexture exP (e2eUpTo 13 ++ [.tx (written exTexture e2eRequest)])) 19
      ((UserQuestion.proof sid).json exTexture.T).render = some reply ∧
    (UserQuestion.proof sid).readText exTexture reply = some (.proof sid b) := by
  have hstored : (Chain.storedBatch (Chain.deployedWorld exP (e2ePlainTo 13)) 19 (Prover.batchId exP.X [e2eMsg.ccId] none)).isSome = true := by
    decide +kernel
  obtain ⟨b, hbt⟩ := Option.isSome_iff_exists.mp hstored
  obtain ⟨sid, digest, reply, -, -, -, h1, h2⟩ := C114_again (P := exP) ex_sound exP_octets exP_four (e2eUpTo 13)
    (written exTexture e2eRequest) again_range again_apart 19 Chain.exProver svc .ecdsa (by rw [upTo_setup]; rfl) ⟨1, 11, 5⟩
    (by rw [upTo_setup]; rfl)
    (by rw [upTo_log]; exact Chain.setsDistinctAt_of (sets := [e2eSet]) (by decide +kernel) (by decide +kernel))
    (by rw [upTo_log]; decide +kernel) [] (write exTexture (.prover (.constructProof [e2eMsg.ccId]))) rfl [e2eMsg.ccId]
    (by decide +kernel) (by decide) [e2eMsg] e2eSet (by rw [upTo_world]; exact again_ready) b (by rw [upTo_world]; exact hbt)
  exact ⟨_, sid, reply, h1, h2⟩

end Amp.Wire
