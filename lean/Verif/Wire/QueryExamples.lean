import Verif.Wire.QueryProps
import Verif.Wire.MsgExamples

/-!
# Concrete cases for C96
-/

namespace Amp.Wire

open Amp.Router (ChainName CCId Message)
open Amp.Chain (Msg Tx Entry exP exSetup exTxs eth sui svc exNexus exMsg1 answer)

/-- the storage after the history of the example -/
def exAfter : Chain.World := textWorldAfter exTexture exP exSetup exTextTxs

theorem exAfter_plain : exAfter = Chain.worldAfter exP exSetup exPlainTxs := exText_world exP_bytes

/-! questions -/

example : (Question.json exTexture.T (.activeWorkers svc eth)).render =
    ("{\"get_active_workers\":{\"service_name\":\"" ++ String.ofList svc ++ "\",\"chain_name\":\"eth\"}}").toList := by
  decide +kernel

example : (Question.json exTexture.T (.getMessages [⟨eth, "0xab:1".toList⟩])).render =
    "{\"get_messages\":{\"message_ids\":[{\"chain\":\"eth\",\"id\":\"0xab:1\"}]}}".toList := by decide +kernel

example : (Question.json exTexture.T (.publicKey 5 .ecdsa)).render =
    "{\"get_public_key\":{\"worker_address\":\"axelar15\",\"key_type\":\"ecdsa\"}}".toList := by decide +kernel

example : (Question.json exTexture.T (.getMultisig 1)).render =
    "{\"get_multisig\":{\"session_id\":\"1\"}}".toList := by decide +kernel

/-! their texts and what is answered by the contracts at 12 (a verifier), 15 (a gateway), 10 (the registry), 18 (multisig) -/

/-- the text of an answer -/
def exAnswer (a : Addr) (q : Str) : Option Str :=
  (exAfter a).bind (fun s => ((fromStr exTexture.finite q).bind (answers exTexture exP s)).map Json.render)

example : exAnswer 12 (askIsVerified [exMsg1]).render =
    some "[[{\"chain\":\"eth\",\"id\":\"0xab:1\"},true]]".toList := by
  unfold exAnswer; rw [exAfter_plain]; decide +kernel

example : exAnswer 12 (askIsVerified [{ exMsg1 with sourceAddress := "0xt".toList }]).render =
    some "[[{\"chain\":\"eth\",\"id\":\"0xab:1\"},false]]".toList := by
  unfold exAnswer; rw [exAfter_plain]; decide +kernel

example : exAnswer 18 (askIsVerified [exMsg1]).render = none := by
  unfold exAnswer; rw [exAfter_plain]; decide +kernel

example : exAnswer 17 (askGetMessages [exMsg1.ccId]).render =
    some (jsonMessages [exMsg1]).render := by
  unfold exAnswer; rw [exAfter_plain]; decide +kernel

example : exAnswer 17 (askGetMessages [⟨eth, "0xab:7".toList⟩]).render = none := by
  unfold exAnswer; rw [exAfter_plain]; decide +kernel

example : (exAnswer 10 (askActiveWorkers svc eth).render).map (List.take 101) = some
    ("[{\"address\":\"axelar15\",\"bonding_state\":{\"Bonded\":{\"amount\":\"10\"}}," ++
      "\"authorization_state\":\"Authorized\",").toList := by
  unfold exAnswer; rw [exAfter_plain]; decide +kernel

example : (exAnswer 18 (askGetMultisig 1).render).map (List.take 62) =
    some "{\"state\":{\"completed\":{\"completed_at\":10}},\"quorum\":\"2\",\"signe".toList := by
  unfold exAnswer; rw [exAfter_plain]; decide +kernel

/-! what the contract that asks learns -/

example : ask exTexture exP exAfter 10 (askActiveWorkers svc eth) (asVec (asWorker exTexture.T)) =
    some [⟨5, .bonded 10, .authorized, svc⟩, ⟨6, .bonded 10, .authorized, svc⟩, ⟨7, .bonded 10, .authorized, svc⟩] := by
  rw [exAfter_plain]; decide +kernel

example : ask exTexture exP exAfter 12 (askIsVerified [exMsg1]) (asStatuses exTexture.L) =
    some [(exMsg1.ccId, true)] := by
  rw [exAfter_plain]; decide +kernel

/-- the hypotheses of C96 are met -/
example : ask exTexture exP exAfter 17 (Question.json exTexture.T (.getMessages [exMsg1.ccId]))
      (Question.read exTexture (.getMessages [exMsg1.ccId])) =
    (exAfter 17).bind (Question.truth exP (.getMessages [exMsg1.ccId])) :=
  C96_answer ex_sound exP_bytes exSetup_typed exTextTxs exText_range 17 _ (by
    intro i hi
    rw [List.mem_singleton.mp hi]
    exact ⟨⟨by decide, by decide, rfl⟩, by decide⟩)

/-- two sessions were completed, and the prover hands out their proofs -/
example : (answer (askProofText exTexture exP exAfter 19 1)).isSome = true := by
  rw [exAfter_plain]; decide +kernel

end Amp.Wire
