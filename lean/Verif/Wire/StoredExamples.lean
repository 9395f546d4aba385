import Verif.Wire.StoredProps
import Verif.Wire.LogExamples

/-!
# Concrete cases for C98
-/

namespace Amp.Wire

open Amp.Chain (exP exSetup eth svc exMsg1)

theorem exP_octets : Octets exP.X := by
  refine ⟨exP_bytes, ?_⟩
  intro s b h
  have h : (none : Option (List Nat)) = some b := h
  cases h

theorem exSetup_range : SetupInRange exSetup := by
  constructor
  · intro a cfg p h hs
    have : p = ⟨100, 1000, ⟨1, 2⟩⟩ ∧ h = 1 := by
      unfold exSetup at hs
      split at hs <;> first | (cases hs; exact ⟨rfl, rfl⟩) | (cases hs; done)
    rw [this.1, this.2]
    unfold ParamsInRange
    decide
  · intro a cfg sv kt hs
    have : cfg.destinationChainId = 10 := by
      unfold exSetup at hs
      split at hs <;> first | (cases hs; rfl) | (cases hs; done)
    rw [this]
    decide

/-- the text kept at a place after the transactions of the example -/
def exKept (a : Addr) (k : Slot) : Option Str := (textWorldAfter exTexture exP exSetup exTextTxs a).bind (fun s => kept exTexture s k)

theorem exKept_plain (a : Addr) (k : Slot) :
    exKept a k = (Chain.worldAfter exP exSetup exPlainTxs a).bind (fun s => kept exTexture s k) := by
  unfold exKept
  rw [exText_world exP_bytes]

/-! what is kept -/

example : exKept 12 .pollId = some "\"1\"".toList := by
  rw [exKept_plain]; decide +kernel

example : exKept 12 (.poll 1) = some ("{\"messages\":{\"poll_id\":\"1\",\"quorum\":\"2\",\"expires_at\":14,\"poll_size\":2,\"tallies\":[" ++
    "{\"FailedOnChain\":\"0\",\"NotFound\":\"0\",\"SucceededOnChain\":\"2\"}," ++
    "{\"FailedOnChain\":\"0\",\"NotFound\":\"0\",\"SucceededOnChain\":\"2\"}],\"status\":\"finished\",\"participation\":{" ++
    "\"axelar15\":{\"weight\":\"1\",\"vote\":[\"succeeded_on_chain\",\"succeeded_on_chain\"]}," ++
    "\"axelar16\":{\"weight\":\"1\",\"vote\":[\"succeeded_on_chain\",\"succeeded_on_chain\"]}," ++
    "\"axelar17\":{\"weight\":\"1\",\"vote\":null}}}}").toList := by
  rw [exKept_plain]; decide +kernel

example : exKept 14 (.chain eth) =
    some "{\"name\":\"eth\",\"gateway\":{\"address\":\"axelar113\"},\"frozen_status\":0}".toList := by
  rw [exKept_plain]; decide +kernel

example : exKept 10 (.worker svc 5) = some
    "{\"address\":\"axelar15\",\"bonding_state\":{\"Bonded\":{\"amount\":\"10\"}},\"authorization_state\":\"Authorized\",\"service_name\":\"svc\"}".toList := by
  rw [exKept_plain]; decide +kernel

example : exKept 11 .params = some ("{\"params\":{\"epoch_duration\":\"100\",\"rewards_per_epoch\":\"1000\"," ++
    "\"participation_threshold\":[\"1\",\"2\"]},\"last_updated\":{\"epoch_num\":0,\"block_height_started\":1}}").toList := by
  rw [exKept_plain]; decide +kernel

example : exKept 11 (.tally 18 0) = some ("{\"contract\":\"axelar118\",\"event_count\":1,\"participation\":{\"axelar15\":1,\"axelar17\":1}," ++
    "\"epoch\":{\"epoch_num\":0,\"block_height_started\":1},\"params\":{\"epoch_duration\":\"100\",\"rewards_per_epoch\":\"1000\"," ++
    "\"participation_threshold\":[\"1\",\"2\"]}}").toList := by
  rw [exKept_plain]; decide +kernel

example : exKept 18 .sessionCounter = some "\"1\"".toList := by
  rw [exKept_plain]; decide +kernel

example : exKept 18 (.session 2) = none := by
  rw [exKept_plain]; decide +kernel

/-! and what is loaded -/

example : (exKept 18 (.session 1)).bind (load exTexture (.session 1)) =
    (textWorldAfter exTexture exP exSetup exTextTxs 18).bind (fun s => stored s (.session 1)) := by
  cases h : textWorldAfter exTexture exP exSetup exTextTxs 18 with
  | none => unfold exKept; rw [h]; rfl
  | some s =>
    have key := C98_load ex_sound exP_octets exSetup_typed exSetup_range exTextTxs exText_range 18 s h (.session 1)
    unfold exKept
    rw [h, Option.bind_some, Option.bind_some]
    cases hk : stored s (.session 1) with
    | none => simp only [kept, hk]; rfl
    | some v =>
      rw [kept, hk] at key ⊢
      exact Option.some.inj key

/-! places of every contract are in use -/

example : ([(12, .pollId), (12, .poll 1), (12, .pollMessage (exP.H.msg exMsg1.hashInput)), (17, .outgoing exMsg1.ccId), (14, .chain eth),
    (10, .service svc), (10, .worker svc 5), (10, .supports svc eth 5), (11, .params), (11, .tally 18 0), (18, .session 1),
    (18, .signature 1 5), (18, .pubKey 5 .ecdsa), (18, .authorized 19), (19, .sessionBatch 1), (19, .currentSet)] :
      List (Addr × Slot)).all (fun p => (exKept p.1 p.2).isSome) = true := by
  simp only [exKept_plain]; decide +kernel

/-! a number that is too large is not loaded, so the range matters -/

example : load exTexture .pollId (Value.json exTexture (.counter (u64Max + 1))).render = none := by decide +kernel

example : load exTexture (.tally 18 0) ("{\"contract\":\"axelar118\",\"event_count\":1,\"participation\":{\"axelar17\":1,\"axelar15\":1}," ++
    "\"epoch\":{\"epoch_num\":0,\"block_height_started\":1},\"params\":{\"epoch_duration\":\"100\",\"rewards_per_epoch\":\"1000\"," ++
    "\"participation_threshold\":[\"1\",\"2\"]}}").toList =
    some (.tally 18 ⟨1, [(5, 1), (7, 1)], ⟨0, 1⟩, ⟨100, 1000, ⟨1, 2⟩⟩⟩) := by decide +kernel

end Amp.Wire
