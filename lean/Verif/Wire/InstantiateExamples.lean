import Verif.Wire.InstantiateProps
import Verif.Wire.StoredExamples

/-!
# Concrete cases for C104
-/

namespace Amp.Wire

open Amp.Chain (exP exSetup eth sui svc Kind)

/-! messages that instantiate contracts, written by hand -/

def exVerifierOrder : Str := ("{\"service_registry_address\":\"axelar110\",\"service_name\":\"svc\"," ++
  "\"source_gateway_address\":\"0xgw\",\"voting_threshold\":[\"2\",\"3\"],\"block_expiry\":10,\"confirmation_height\":1," ++
  "\"source_chain\":\"ETH\",\"rewards_address\":\"axelar111\"}").toList

example : readOrder exTexture .verifier exVerifierOrder =
    some (.verifier ⟨10, svc, "0xgw".toList, ⟨2, 3⟩, 10, 1, eth, 11⟩) := by decide +kernel

def exProverOrder : Str := ("{\"admin_address\":\"axelar11\",\"gateway_address\":\"axelar117\",\"multisig_address\":\"axelar118\"," ++
  "\"service_registry_address\":\"axelar110\",\"voting_verifier_address\":\"axelar116\",\"destination_chain_id\":\"10\"," ++
  "\"signing_threshold\":[\"2\",\"3\"],\"service_name\":\"svc\",\"chain_name\":\"sui\",\"worker_set_diff_threshold\":1," ++
  "\"encoder\":\"bcs\",\"key_type\":\"ecdsa\"}").toList

example : readOrder exTexture .prover exProverOrder =
    some (.prover 1 ⟨17, 18, 10, 16, 10, ⟨2, 3⟩, sui, 1, .bcs⟩ svc .ecdsa) := by decide +kernel

def exRewardsOrder : Str := ("{\"governance_address\":\"axelar11\",\"rewards_denom\":\"axl\",\"params\":{\"epoch_duration\":\"100\"," ++
  "\"rewards_per_epoch\":\"1000\",\"participation_threshold\":[\"1\",\"2\"]}}").toList

example : readOrder exTexture .rewards exRewardsOrder =
    some (.rewards ⟨1, "axl".toList⟩ ⟨100, 1000, ⟨1, 2⟩⟩) := by decide +kernel

/-! no half, no more than everything, no empty name of a service, no separator in the name of a chain, no epochs of no length -/

/-- a verifier with this threshold, service and chain -/
def exRefused (threshold service chain : String) : Bool :=
  (readOrder exTexture .verifier ("{\"service_registry_address\":\"axelar110\",\"service_name\":\"" ++ service ++
    "\",\"source_gateway_address\":\"0xgw\",\"voting_threshold\":" ++ threshold ++ ",\"block_expiry\":10,\"confirmation_height\":1," ++
    "\"source_chain\":\"" ++ chain ++ "\",\"rewards_address\":\"axelar111\"}").toList).isNone

example : exRefused "[\"1\",\"2\"]" "svc" "eth" = true := by decide +kernel

example : exRefused "[\"4\",\"3\"]" "svc" "eth" = true := by decide +kernel

example : exRefused "[\"2\",\"3\"]" "" "eth" = true := by decide +kernel

example : exRefused "[\"2\",\"3\"]" "svc" "e:th" = true := by decide +kernel

example : exRefused "[\"2\",\"3\"]" "svc" "" = true := by decide +kernel

example : exRefused "[\"2\",\"0\"]" "svc" "eth" = true := by decide +kernel

example : readOrder exTexture .rewards ("{\"governance_address\":\"axelar11\",\"rewards_denom\":\"axl\",\"params\":{" ++
    "\"epoch_duration\":\"0\",\"rewards_per_epoch\":\"1000\",\"participation_threshold\":[\"1\",\"2\"]}}").toList = none := by
  decide +kernel

example : readOrder exTexture .gateway "{\"verifier_address\":\"axelar112\"}".toList = none := by decide +kernel

/-! what is kept then -/

example : (readOrder exTexture .verifier exVerifierOrder).map (keptConf exTexture) =
    some ("{\"service_registry_contract\":\"axelar110\",\"service_name\":\"svc\",\"source_gateway_address\":\"0xgw\"," ++
      "\"voting_threshold\":[\"2\",\"3\"],\"block_expiry\":10,\"confirmation_height\":1,\"source_chain\":\"eth\"," ++
      "\"rewards_contract\":\"axelar111\"}").toList := by decide +kernel

/-! ### The contracts of the example -/

/-- what they are instantiated with -/
def exOrders : List (Addr × Order) := [(10, .registry 1), (11, .rewards ⟨1, "axl".toList⟩ ⟨100, 1000, ⟨1, 2⟩⟩),
  (12, .verifier ⟨10, svc, "0xgw".toList, ⟨2, 3⟩, 10, 1, eth, 11⟩), (13, .gateway ⟨12, 14⟩), (14, .router ⟨1, 1, 15⟩),
  (15, .nexus ⟨2, 14⟩), (16, .verifier ⟨10, svc, "0x2".toList, ⟨2, 3⟩, 10, 1, sui, 11⟩), (17, .gateway ⟨16, 14⟩),
  (18, .multisig ⟨1, 11, 5⟩), (19, .prover 1 ⟨17, 18, 10, 16, 10, ⟨2, 3⟩, sui, 1, .bcs⟩ svc .ecdsa)]

theorem exOrders_read : ∀ x ∈ exOrders, readOrder exTexture x.2.conf.party (writeOrder exTexture x.2) = some x.2 := by
  decide +kernel

theorem exFounded : Founded exTexture exSetup := by
  intro a k hk
  have key : ∃ x ∈ exOrders, k = x.2.kind 1 := by
    unfold exSetup at hk
    split at hk
    · exact ⟨exOrders[0], by decide +kernel, by cases hk; rfl⟩
    · exact ⟨exOrders[1], by decide +kernel, by cases hk; rfl⟩
    · exact ⟨exOrders[2], by decide +kernel, by cases hk; rfl⟩
    · exact ⟨exOrders[3], by decide +kernel, by cases hk; rfl⟩
    · exact ⟨exOrders[4], by decide +kernel, by cases hk; rfl⟩
    · exact ⟨exOrders[5], by decide +kernel, by cases hk; rfl⟩
    · exact ⟨exOrders[6], by decide +kernel, by cases hk; rfl⟩
    · exact ⟨exOrders[7], by decide +kernel, by cases hk; rfl⟩
    · exact ⟨exOrders[8], by decide +kernel, by cases hk; rfl⟩
    · exact ⟨exOrders[9], by decide +kernel, by cases hk; rfl⟩
    · cases hk
  obtain ⟨x, hx, rfl⟩ := key
  exact ⟨_, _, x.2, 1, exOrders_read x hx, by decide, rfl⟩

/-- the configuration of the verifier after the history of the example -/
example : ∃ s, textWorldAfter exTexture exP exSetup exTextTxs 12 = some s ∧ party s = .verifier ∧
    loadConf exTexture .verifier (jsonConf exTexture.T (confIn 0 s)).render =
      some (.verifier ⟨10, svc, "0xgw".toList, ⟨2, 3⟩, 10, 1, eth, 11⟩) :=
  C104_forever ex_sound exP_bytes exFounded exTextTxs exText_range 12 .verifier exVerifierOrder
    (.verifier ⟨10, svc, "0xgw".toList, ⟨2, 3⟩, 10, 1, eth, 11⟩) 1 (by decide +kernel) rfl

/-! ### A poll is ended -/

/-- the history without its last transaction, which ends poll 1 -/
def exBefore : List TextTx := exTextTxs.dropLast

theorem exBefore_world : textWorldAfter exTexture exP exSetup exBefore = Chain.worldAfter exP exSetup exPlainTxs.dropLast := by
  have h := (C95_written (P := exP) ex_sound exP_bytes exSetup_typed exPlainTxs.dropLast
    (fun tx htx => exText_range _ (List.mem_map.mpr ⟨tx, List.dropLast_subset _ htx, rfl⟩))
    (fun tx htx => exPlain_typed tx (List.dropLast_subset _ htx))).1
  rw [← h]
  unfold exBefore exTextTxs
  rw [List.map_dropLast]

def exEnd : TextTx :=
  ⟨9, [(12, [], "{\"end_poll\":{\"poll_id\":\"1\"}}".toList)], ⟨20, 100000000000⟩, fun _ => false, 20⟩

theorem exBefore_range : ∀ t ∈ exBefore, InRange t := fun t ht => exText_range t (List.dropLast_subset _ ht)

/-- the poll before -/
theorem exBefore_poll : ∃ s sp, textWorldAfter exTexture exP exSetup exBefore 12 = some (.verifier s) ∧ s.polls 1 = some sp ∧
    sp.poll.status = .inProgress ∧ sp.poll.expiresAt = 14 ∧ sp.poll.state.consensusParticipants.length = 2 := by
  have h : (match textWorldAfter exTexture exP exSetup exBefore 12 with
    | some (.verifier s) => (s.polls 1).map
        (fun sp => (sp.poll.status, sp.poll.expiresAt, sp.poll.state.consensusParticipants.length))
    | _ => none) = some (.inProgress, 14, 2) := by
    rw [exBefore_world]; decide +kernel
  split at h
  · rename_i s hs
    obtain ⟨sp, hsp, e⟩ := Option.map_eq_some_iff.mp h
    simp only [Prod.mk.injEq] at e
    exact ⟨s, sp, hs, hsp, e.1, e.2.1, e.2.2⟩
  · cases h

example : ∃ x, execText exTexture exP (textWorldAfter exTexture exP exSetup exBefore) exEnd = .ok x := by
  obtain ⟨s, sp, h1, h2, h3, h4, h5⟩ := exBefore_poll
  refine (C104_end_poll ex_sound exP_bytes exFounded exBefore exBefore_range 12 _ rfl 1 sp s h1 h2 exEnd
    ⟨by decide, by decide, by decide⟩ _ _ _ rfl ?_ ?_ ?_ [] _ rfl (by decide +kernel) rfl ?_).mpr ⟨h3, ?_⟩
  · unfold Chain.InOrder
    have : ((exBefore ++ [exEnd]).map (meaning exTexture exSetup)).map (·.block.height) =
        (exBefore ++ [exEnd]).map (·.block.height) := by rw [List.map_map]; rfl
    rw [this]
    decide +kernel
  · decide +kernel
  · rw [h5]; decide +kernel
  · rw [h5]; decide
  · rw [h4]; decide

end Amp.Wire
