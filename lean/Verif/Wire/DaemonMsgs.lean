import Verif.Wire.MsgProps
import Verif.Wire.MsgExamples

/-!
# C94: what the daemon writes is what the contracts read

The readers are those of C95.
-/

namespace Amp.Wire

open Amp.Chain (Msg)

variable {G : Texture}

/-- A vote that a handler hands to the queue is read by the verifier as that vote, for the same poll; no other kind of contract
reads anything in it. -/
theorem C94_vote (hG : Sound G) (id : Nat) (votes : List Std.Vote) (hid : id ≤ u64Max) (p : Party) :
    readFor G p (jsonMsg (.vote id votes)).render =
      if p = .verifier then some (.verifier (.vote id votes)) else none := by
  have h := C95_read hG (.verifier (.vote id votes)) hid p
  have e : write G (.verifier (.vote id votes)) = (jsonMsg (.vote id votes)).render :=
    congrArg Json.render (rfl : jsonOf G.T G.u (.verifier (.vote id votes)) = jsonMsg (.vote id votes))
  rw [← e, h]
  cases p <;> rfl

/-- A signature that the signing handler hands to the queue is read by the multisig contract as that signature, for the
same session; no other kind of contract reads anything in it. -/
theorem C94_submit_signature (hG : Sound G) (id : Nat) (sig : List Nat) (hid : id ≤ u64Max) (hb : IsBytes sig) (p : Party) :
    readFor G p (jsonMsg (.submitSignature id sig)).render =
      if p = .multisig then some (.multisig (.submitSignature id sig)) else none := by
  have h := C95_read hG (.multisig (.submitSignature id sig)) ⟨hid, hb⟩ p
  have e : write G (.multisig (.submitSignature id sig)) = (jsonMsg (.submitSignature id sig)).render :=
    congrArg Json.render (rfl : jsonOf G.T G.u (.multisig (.submitSignature id sig)) = jsonMsg (.submitSignature id sig))
  rw [← e, h]
  cases p <;> rfl

/-! ### To the contracts -/

example : (jsonMsg (.vote 7 [.succeededOnChain, .notFound])).render =
    "{\"vote\":{\"poll_id\":\"7\",\"votes\":[\"succeeded_on_chain\",\"not_found\"]}}".toList := by decide +kernel

example : (jsonMsg (.submitSignature 7 [1, 255])).render =
    "{\"submit_signature\":{\"session_id\":\"7\",\"signature\":\"01ff\"}}".toList := by decide +kernel

example : (7 : Nat) ≤ u64Max ∧ IsBytes [1, 255] := ⟨by decide, by unfold IsBytes; decide⟩

example : readFor exTexture .multisig (jsonMsg (.submitSignature 7 [1, 255])).render =
    some (.multisig (.submitSignature 7 [1, 255])) :=
  C94_submit_signature ex_sound 7 [1, 255] (by decide) (by unfold IsBytes; decide) .multisig

end Amp.Wire
