import Verif.Wire.AskedProps
import Verif.Wire.RequestExample

/-!
# A concrete case for C114: the request to verify a message
-/

namespace Amp.Wire

open Amp.Chain (Entry exP exTx svc eth sui)

def e2eAsk : Chain.Tx := exTx 9 4 13 (.gateway (.verifyMessages [e2eMsg]))

theorem e2e_unverified : Unverified exP (textDeployedWorld exTexture exP (e2eUpTo 9)) 12 e2eMsg := by
  rw [upTo_world]
  have key : (match Chain.deployedWorld exP (e2ePlainTo 9) 12 with
      | some (.verifier s) => match VV.msgStatus exP.H s e2eMsg with
        | .ok .notVerified => true
        | _ => false
      | _ => false) = true := by decide +kernel
  split at key
  · rename_i s hs
    split at key
    · rename_i h
      exact ⟨s, hs, Or.inl h⟩
    · cases key
  · cases key

set_option maxRecDepth 10000 in
/-- `C114_asked` applies: the worker is asked about the message, until block 14 -/
example : ∃ confs pm cf, pm.expiresAt = 14 ∧ (∀ a, a ∈ pm.participants ↔ a = 5) ∧
    publishVerifier exTexture.T 12 (.messagesPollStarted confs pm) ∈
      eventStream exTexture.T (textDeployedLog exTexture exP (e2eUpTo 10)) ∧
    Chain.PollOpened exP (upToCalls 10) 12 e2eVerifier e2eMsg e2eWorkers confs pm cf := by
  have hsucc := upTo_succ (n := 9) (tx := e2eAsk) rfl
  obtain ⟨-, confs, pm, -, -, -, h4, h5, h6, h7⟩ := C114_asked (P := exP) ex_sound exP_bytes
    (e2eUpTo 9) (written exTexture e2eAsk) (by rw [← hsucc]; exact upTo_range 10) (by rw [← hsucc]; exact upTo_apart 10) 13 ⟨12, 14⟩
    (by rw [upTo_setup]; rfl) e2eVerifier (by rw [upTo_setup]; rfl) (by rw [upTo_log]; decide +kernel) [e2eMsg] (by decide)
    (by intro m hm; obtain rfl : m = e2eMsg := by simpa using hm
        rfl)
    (by intro m hm; obtain rfl : m = e2eMsg := by simpa using hm
        exact ⟨e2eConf, by decide +kernel⟩) (by decide) (by rw [upTo_world]; decide +kernel)
    (by intro m hm m' hm' _
        obtain rfl : m = e2eMsg := by simpa using hm
        obtain rfl : m' = e2eMsg := by simpa using hm'
        rfl) e2eWorkers (by rw [upTo_world]; decide +kernel) (by decide) (by decide) []
    (write exTexture (.gateway (.verifyMessages [e2eMsg]))) rfl (.gateway (.verifyMessages [e2eMsg])) (by decide +kernel) rfl
    (by decide) (by decide) ⟨e2eMsg, List.mem_cons_self .., e2e_unverified⟩ (upToCalls 10) (by rw [← hsucc]; exact upTo_calls 10)
  obtain ⟨cf, -, h8⟩ := h7 e2eMsg (List.mem_cons_self ..) e2e_unverified
  rw [← hsucc] at h6
  refine ⟨confs, pm, cf, h4, fun a => ?_, h6, h8⟩
  rw [h5]
  constructor
  · rintro ⟨w, hw, rfl⟩
    obtain rfl : w = ⟨5, .bonded 10, .authorized, svc⟩ := by simpa [e2eWorkers] using hw
    rfl
  · rintro rfl
    exact ⟨_, List.mem_cons_self .., rfl⟩

end Amp.Wire
