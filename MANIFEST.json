{
 "claims": [
  {
   "property": "C01",
   "status": "proved",
   "theorems": [
    "Amp.Std.C01_threshold_exact",
    "Amp.Std.C01_majority_exact",
    "Amp.Std.C01_compare_rational"
   ],
   "note": ""
  },
  {
   "property": "C02",
   "status": "proved",
   "theorems": [
    "Amp.Std.C02_quorum_exact",
    "Amp.Std.C02_snapshot_total",
    "Amp.Std.C02_participants"
   ],
   "note": ""
  },
  {
   "property": "C03",
   "status": "proved",
   "theorems": [
    "Amp.Std.C03_cast_iff",
    "Amp.Std.C03_cast_errors",
    "Amp.Std.C03_cast_effect"
   ],
   "note": ""
  },
  {
   "property": "C04",
   "status": "proved",
   "theorems": [
    "Amp.Std.C04_ballot_immutable",
    "Amp.Std.C04_ballot_provenance",
    "Amp.Std.C04_fixed_data"
   ],
   "note": ""
  },
  {
   "property": "C05",
   "status": "proved",
   "theorems": [
    "Amp.Std.C05_tally_exact"
   ],
   "note": ""
  },
  {
   "property": "C06",
   "status": "proved",
   "theorems": [
    "Amp.Std.C06_unique",
    "Amp.Std.C06_consensus_iff",
    "Amp.Std.C06_no_consensus_iff",
    "Amp.Std.C06_stable"
   ],
   "note": ""
  },
  {
   "property": "C07",
   "status": "proved",
   "theorems": [
    "Amp.Std.C07_finish_iff",
    "Amp.Std.C07_finished_is_final"
   ],
   "note": ""
  },
  {
   "property": "C08",
   "status": "proved",
   "theorems": [
    "Amp.Std.C08_results",
    "Amp.Std.C08_consensus_participants"
   ],
   "note": ""
  },
  {
   "property": "C09",
   "status": "proved",
   "theorems": [
    "Amp.VV.C09_verified_sound",
    "Amp.VV.C09_quorum_is_majority"
   ],
   "note": ""
  },
  {
   "property": "C10",
   "status": "proved",
   "theorems": [
    "Amp.VV.C10_verified_forever",
    "Amp.VV.C10_worker_set_verified_forever"
   ],
   "note": ""
  },
  {
   "property": "C11",
   "status": "proved",
   "theorems": [
    "Amp.VV.C11_answers",
    "Amp.VV.C11_polled_exactly",
    "Amp.VV.C11_not_repolled",
    "Amp.VV.C11_tracked_after"
   ],
   "note": ""
  },
  {
   "property": "C12",
   "status": "proved",
   "theorems": [
    "Amp.VV.C12_poll_ids",
    "Amp.VV.C12_isolation",
    "Amp.VV.C12_fixed_data"
   ],
   "note": ""
  },
  {
   "property": "C13",
   "status": "proved",
   "theorems": [
    "Amp.VV.C13_rejected",
    "Amp.VV.C13_source_chain_only"
   ],
   "note": ""
  },
  {
   "property": "C14",
   "status": "partial",
   "theorems": [
    "Amp.VV.C14_counterexample",
    "Amp.VV.C14_independent_partial",
    "Amp.VV.C14_no_substitution"
   ],
   "note": "False of the code: Message::hash concatenates variable-length fields, so two different messages can share a hash (C14_counterexample, for every hash function). Proved instead: messages with different hashes are independent, and a collision never makes an unpolled message verified."
  },
  {
   "property": "C15",
   "status": "proved",
   "theorems": [
    "Amp.VV.C15_end_poll_rewards",
    "Amp.VV.C15_only_end_poll",
    "Amp.VV.C15_at_most_once",
    "Amp.VV.C15_records_exact"
   ],
   "note": ""
  },
  {
   "property": "C16",
   "status": "proved",
   "theorems": [
    "Amp.VV.C16_worker_set_sound",
    "Amp.VV.C16_not_repolled"
   ],
   "note": ""
  },
  {
   "property": "C17",
   "status": "proved",
   "theorems": [
    "Amp.Router.C17_gateway_unique",
    "Amp.Router.C17_lookup_exact",
    "Amp.Router.C17_no_panic"
   ],
   "note": ""
  },
  {
   "property": "C18",
   "status": "proved",
   "theorems": [
    "Amp.Router.C18_changes_authorised",
    "Amp.Router.C18_unauthorised_rejected",
    "Amp.Router.C18_routing_and_config",
    "Amp.Router.C18_chains_persist",
    "Amp.Router.C18_gateway_history"
   ],
   "note": ""
  },
  {
   "property": "C19",
   "status": "proved",
   "theorems": [
    "Amp.Router.C19_routed_iff",
    "Amp.Router.C19_frozen_blocks",
    "Amp.Router.C19_frozen_error"
   ],
   "note": ""
  },
  {
   "property": "C20",
   "status": "proved",
   "theorems": [
    "Amp.Router.C20_frozen_history",
    "Amp.Router.C20_step"
   ],
   "note": ""
  },
  {
   "property": "C21",
   "status": "proved",
   "theorems": [
    "Amp.Router.C21_source_authentic",
    "Amp.Router.C21_strangers_rejected"
   ],
   "note": ""
  },
  {
   "property": "C22",
   "status": "proved",
   "theorems": [
    "Amp.Router.C22_conservation",
    "Amp.Router.C22_each_message"
   ],
   "note": ""
  },
  {
   "property": "C23",
   "status": "proved",
   "theorems": [
    "Amp.Router.C23_unknown_to_nexus",
    "Amp.Router.C23_no_bounce"
   ],
   "note": ""
  },
  {
   "property": "C24",
   "status": "proved",
   "theorems": [
    "Amp.Router.C24_roundtrip",
    "Amp.Router.C24_parse_sound",
    "Amp.Router.C24_show_injective",
    "Amp.Router.C24_chain_names"
   ],
   "note": ""
  },
  {
   "property": "C25",
   "status": "proved",
   "theorems": [
    "Amp.Gateway.C25_only_verified",
    "Amp.Gateway.C25_history"
   ],
   "note": ""
  },
  {
   "property": "C26",
   "status": "proved",
   "theorems": [
    "Amp.Gateway.C26_only_unverified"
   ],
   "note": ""
  },
  {
   "property": "C27",
   "status": "proved",
   "theorems": [
    "Amp.Gateway.C27_outgoing_from_router",
    "Amp.Gateway.C27_query_exact",
    "Amp.Gateway.C27_stored_under_own_id",
    "Amp.Gateway.C27_delivery"
   ],
   "note": ""
  },
  {
   "property": "C28",
   "status": "proved",
   "theorems": [
    "Amp.Gateway.C28_duplicates",
    "Amp.Gateway.C28_forwarded_distinct"
   ],
   "note": ""
  },
  {
   "property": "C29",
   "status": "proved",
   "theorems": [
    "Amp.Chain.C29_at_most_once",
    "Amp.Nexus.C29_exact",
    "Amp.Nexus.C29_across_calls",
    "Amp.Nexus.C29_counterexample",
    "Amp.Nexus.C29_at_most_once_partial",
    "Amp.Nexus.C29_never_lost"
   ],
   "note": "False of the contract alone for one batch that repeats an id (C29_counterexample); C29_at_most_once_partial covers the other batches. Proved without restriction for the contract in its place, behind the router and the gateways of this repository (C29_at_most_once), where no batch repeats an id."
  },
  {
   "property": "C30",
   "status": "proved",
   "theorems": [
    "Amp.Nexus.C30_access",
    "Amp.Nexus.C30_effects"
   ],
   "note": ""
  },
  {
   "property": "C31",
   "status": "proved",
   "theorems": [
    "Amp.Nexus.C31_roundtrip",
    "Amp.Nexus.C31_injective",
    "Amp.Nexus.C31_usual_ids",
    "Amp.Nexus.C31_well_formed",
    "Amp.Nexus.C31_not_injective_to_nexus"
   ],
   "note": ""
  },
  {
   "property": "C32",
   "status": "proved",
   "theorems": [
    "Amp.Registry.C32_worker_ledger",
    "Amp.Registry.C32_service_ledger",
    "Amp.Registry.C32_solvent"
   ],
   "note": ""
  },
  {
   "property": "C33",
   "status": "proved",
   "theorems": [
    "Amp.Registry.C33_release",
    "Amp.Registry.C33_claimable",
    "Amp.Registry.C33_not_repeated"
   ],
   "note": ""
  },
  {
   "property": "C34",
   "status": "proved",
   "theorems": [
    "Amp.Registry.C34_active_workers",
    "Amp.Registry.C34_unknown_service"
   ],
   "note": ""
  },
  {
   "property": "C35",
   "status": "proved",
   "theorems": [
    "Amp.Registry.C35_authorisation",
    "Amp.Registry.C35_governance_only",
    "Amp.Registry.C35_services"
   ],
   "note": ""
  },
  {
   "property": "C36",
   "status": "proved",
   "theorems": [
    "Amp.Registry.C36_transitions",
    "Amp.Registry.C36_state_from_history",
    "Amp.Registry.C36_unbond_iff"
   ],
   "note": ""
  },
  {
   "property": "C37",
   "status": "partial",
   "theorems": [
    "Amp.Registry.C37_inner_query_partial",
    "Amp.Registry.C37_counterexample",
    "Amp.Registry.C37_wrong_record"
   ],
   "note": "False of the code: the query entry point swaps the two arguments (C37_counterexample, C37_wrong_record). Proved for the inner query function."
  },
  {
   "property": "C38",
   "status": "proved",
   "theorems": [
    "Amp.Rewards.C38_consecutive",
    "Amp.Rewards.C38_at_most_once",
    "Amp.Rewards.C38_payment",
    "Amp.Rewards.C38_extent"
   ],
   "note": ""
  },
  {
   "property": "C39",
   "status": "proved",
   "theorems": [
    "Amp.Rewards.C39_pool_ledger",
    "Amp.Rewards.C39_distribution",
    "Amp.Rewards.C39_solvent"
   ],
   "note": ""
  },
  {
   "property": "C40",
   "status": "proved",
   "theorems": [
    "Amp.Rewards.C40_shares",
    "Amp.Rewards.C40_bound",
    "Amp.Rewards.C40_epoch_total",
    "Amp.Rewards.C40_distribution"
   ],
   "note": ""
  },
  {
   "property": "C41",
   "status": "proved",
   "theorems": [
    "Amp.Rewards.C41_eligibility",
    "Amp.Rewards.C41_recorded_twice_forfeits",
    "Amp.Rewards.C41_due_from_history"
   ],
   "note": ""
  },
  {
   "property": "C42",
   "status": "proved",
   "theorems": [
    "Amp.Rewards.C42_event_home",
    "Amp.Rewards.C42_tally"
   ],
   "note": ""
  },
  {
   "property": "C43",
   "status": "proved",
   "theorems": [
    "Amp.Rewards.C43_epoch_contains",
    "Amp.Rewards.C43_update_no_skip",
    "Amp.Rewards.C43_other_calls",
    "Amp.Rewards.C43_monotone",
    "Amp.Rewards.C43_start_not_future"
   ],
   "note": ""
  },
  {
   "property": "C44",
   "status": "proved",
   "theorems": [
    "Amp.Rewards.C44_params_governance",
    "Amp.Rewards.C44_deposit",
    "Amp.Rewards.C44_records_own"
   ],
   "note": ""
  },
  {
   "property": "C45",
   "status": "proved",
   "theorems": [
    "Amp.Multisig.C45_completed",
    "Amp.Multisig.C45_report"
   ],
   "note": ""
  },
  {
   "property": "C46",
   "status": "proved",
   "theorems": [
    "Amp.Multisig.C46_moment",
    "Amp.Multisig.C46_no_delay",
    "Amp.Multisig.C46_permanent",
    "Amp.Multisig.C46_signatures_permanent"
   ],
   "note": ""
  },
  {
   "property": "C47",
   "status": "proved",
   "theorems": [
    "Amp.Multisig.C47_acceptance"
   ],
   "note": ""
  },
  {
   "property": "C48",
   "status": "proved",
   "theorems": [
    "Amp.Multisig.C48_ids",
    "Amp.Multisig.C48_origin",
    "Amp.Multisig.C48_immutable",
    "Amp.Multisig.C48_callers",
    "Amp.Multisig.C48_authorised"
   ],
   "note": ""
  },
  {
   "property": "C49",
   "status": "proved",
   "theorems": [
    "Amp.Multisig.C49_content_addressed",
    "Amp.Multisig.C49_stable",
    "Amp.Multisig.C49_forever"
   ],
   "note": ""
  },
  {
   "property": "C50",
   "status": "proved",
   "theorems": [
    "Amp.Multisig.C50_per_call",
    "Amp.Multisig.C50_exactly_once",
    "Amp.Multisig.C50_completion_once"
   ],
   "note": ""
  },
  {
   "property": "C51",
   "status": "proved",
   "theorems": [
    "Amp.Multisig.C51_registered_key",
    "Amp.Multisig.C51_signature_length"
   ],
   "note": ""
  },
  {
   "property": "C52",
   "status": "proved",
   "theorems": [
    "Amp.Prover.C52_change",
    "Amp.Prover.C52_unconfirmed",
    "Amp.Prover.C52_proposed"
   ],
   "note": ""
  },
  {
   "property": "C53",
   "status": "proved",
   "theorems": [
    "Amp.Prover.C53_one_rotation",
    "Amp.Prover.C53_refused"
   ],
   "note": ""
  },
  {
   "property": "C54",
   "status": "proved",
   "theorems": [
    "Amp.Prover.C54_update",
    "Amp.Prover.C54_started"
   ],
   "note": ""
  },
  {
   "property": "C55",
   "status": "proved",
   "theorems": [
    "Amp.Prover.C55_fewest",
    "Amp.Prover.C55_total",
    "Amp.Prover.C55_proof"
   ],
   "note": ""
  },
  {
   "property": "C56",
   "status": "proved",
   "theorems": [
    "Amp.Prover.C56_order",
    "Amp.Prover.C56_identifies",
    "Amp.Prover.C56_counterexample"
   ],
   "note": "For ids without commas, as the statement says; for arbitrary ids it is false (C56_counterexample). Collisions are excluded only for the two texts and sets at hand."
  },
  {
   "property": "C57",
   "status": "proved",
   "theorems": [
    "Amp.Prover.C57_request",
    "Amp.Prover.C57_stored",
    "Amp.Prover.C57_reused",
    "Amp.Prover.C57_refused",
    "Amp.Prover.C57_with_gateway"
   ],
   "note": ""
  },
  {
   "property": "C58",
   "status": "partial",
   "theorems": [
    "Amp.Prover.C58_current_registered",
    "Amp.Prover.C58_signed",
    "Amp.Prover.C58_proof_partial",
    "Amp.Prover.C58_counterexample",
    "Amp.Prover.C58_session",
    "Amp.Prover.C58_link_permanent",
    "Amp.Prover.C58_bound_partial"
   ],
   "note": "False of the code if two requests in the same block both rotate the worker set and list the same messages in different orders (C58_counterexample). Proved: every session was opened for the digest of the batch stored at that time under the current worker set and stays linked to it; the digest of what GetProof returns equals the signed one in all other histories."
  },
  {
   "property": "C59",
   "status": "proved",
   "theorems": [
    "Amp.Encoding.Abi.C59_data_roundtrip",
    "Amp.Encoding.Abi.C59_injective",
    "Amp.Encoding.Abi.C59_digest",
    "Amp.Encoding.Abi.C59_approval_roundtrip",
    "Amp.Encoding.Abi.C59_approval_injective"
   ],
   "note": ""
  },
  {
   "property": "C60",
   "status": "proved",
   "theorems": [
    "Amp.Encoding.Bcs.C60_data_roundtrip",
    "Amp.Encoding.Bcs.C60_injective",
    "Amp.Encoding.Bcs.C60_digest",
    "Amp.Encoding.Bcs.C60_approval_roundtrip",
    "Amp.Encoding.Bcs.C60_approval_injective"
   ],
   "note": ""
  },
  {
   "property": "C61",
   "status": "proved",
   "theorems": [
    "Amp.Encoding.Abi.C61_transfer_abi",
    "Amp.Encoding.Abi.C61_address_abi",
    "Amp.Encoding.Abi.C61_operators_abi",
    "Amp.Encoding.Abi.C61_execute_abi",
    "Amp.Encoding.Bcs.C61_transfer_bcs",
    "Amp.Encoding.Bcs.C61_operators_bcs",
    "Amp.Encoding.Bcs.C61_execute_bcs"
   ],
   "note": ""
  },
  {
   "property": "C62",
   "status": "proved",
   "theorems": [
    "Amp.Prover.C62_built",
    "Amp.Prover.C62_reachable",
    "Amp.Prover.C62_with_registry"
   ],
   "note": ""
  },
  {
   "property": "C63",
   "status": "proved",
   "theorems": [
    "Amp.Batching.C63_mandatory_failure",
    "Amp.Batching.C63_batch",
    "Amp.Batching.C63_dispatch"
   ],
   "note": ""
  },
  {
   "property": "C64",
   "status": "partial",
   "theorems": [
    "Amp.Aggregate.C64_relayed_unchanged_partial",
    "Amp.Aggregate.C64_voting_verifier_rejected",
    "Amp.Aggregate.C64_query_never_relays"
   ],
   "note": "Proved that the verifier's answer is relayed unchanged when it decodes; for the voting verifier of this repository it never decodes, so every Verify through the aggregate verifier fails (C64_voting_verifier_rejected, C64_query_never_relays)."
  },
  {
   "property": "C65",
   "status": "proved",
   "theorems": [
    "Amp.Ampd.C65_order",
    "Amp.Ampd.C65_flush",
    "Amp.Ampd.C65_tick",
    "Amp.Ampd.C65_batches",
    "Amp.Ampd.C65_failure_loses"
   ],
   "note": ""
  },
  {
   "property": "C66",
   "status": "proved",
   "theorems": [
    "Amp.Ampd.C66_contiguous",
    "Amp.Ampd.C66_no_start",
    "Amp.Ampd.C66_complete",
    "Amp.Ampd.C66_once",
    "Amp.Ampd.C66_counterexample_regress"
   ],
   "note": ""
  },
  {
   "property": "C67",
   "status": "partial",
   "theorems": [
    "Amp.Ampd.C67_run",
    "Amp.Ampd.C67_recorded",
    "Amp.Ampd.C67_contiguous_partial",
    "Amp.Ampd.C67_resume_partial",
    "Amp.Ampd.C67_counterexample_kill",
    "Amp.Ampd.C67_counterexample_lag"
   ],
   "note": "False of the code in two cases: the state file is only written at shutdown, so blocks completed before a hard kill are handled again (C67_counterexample_kill), and skip_to_block swallows overflow errors, so a lagging subscription can lose blocks (C67_counterexample_lag). Proved for all histories of runs: blocks completed in runs that wrote the state file are contiguous, each once, and the next run resumes right after them, provided subscriptions do not overflow while skipping and the reported heights never decrease."
  },
  {
   "property": "C68",
   "status": "proved",
   "theorems": [
    "Amp.Ampd.Evm.C68_sound",
    "Amp.Ampd.Evm.C68_exact",
    "Amp.Ampd.Evm.C68_one_message_per_log",
    "Amp.Ampd.Evm.C68_worker_set_sound",
    "Amp.Ampd.Evm.C68_worker_set_complete",
    "Amp.Ampd.Evm.C68_pow_underflow",
    "Amp.Ampd.Evm.C68_pow_height"
   ],
   "note": ""
  },
  {
   "property": "C69",
   "status": "proved",
   "theorems": [
    "Amp.Ampd.Sui.C69_sound",
    "Amp.Ampd.Sui.C69_exact",
    "Amp.Ampd.Sui.C69_one_message_per_event",
    "Amp.Ampd.Sui.C69_worker_set_sound",
    "Amp.Ampd.Sui.C69_worker_set_complete"
   ],
   "note": ""
  },
  {
   "property": "C70",
   "status": "proved",
   "theorems": [
    "Amp.Ampd.Evm.C70_evm_messages",
    "Amp.Ampd.Evm.C70_evm_messages_else",
    "Amp.Ampd.Evm.C70_evm_worker_set",
    "Amp.Ampd.Evm.C70_evm_worker_set_else",
    "Amp.Ampd.Sui.C70_sui_messages",
    "Amp.Ampd.Sui.C70_sui_messages_else",
    "Amp.Ampd.Sui.C70_sui_worker_set",
    "Amp.Ampd.Sui.C70_sui_worker_set_else",
    "Amp.Ampd.Evm.C70_evm_messages_accepted",
    "Amp.Ampd.Evm.C70_evm_worker_set_accepted",
    "Amp.Ampd.Sui.C70_sui_messages_accepted",
    "Amp.Ampd.Sui.C70_sui_worker_set_accepted",
    "Amp.Ampd.C70_stall_run",
    "Amp.Ampd.C70_stall",
    "Amp.Ampd.C70_foreign_poll_stalls_evm",
    "Amp.Ampd.C70_foreign_poll_stalls_sui",
    "Amp.Ampd.C70_unreadable_chain_stalls"
   ],
   "note": ""
  },
  {
   "property": "C71",
   "status": "proved",
   "theorems": [
    "Amp.Ampd.C71_confirm",
    "Amp.Ampd.C71_sequence",
    "Amp.Ampd.C71_used"
   ],
   "note": ""
  },
  {
   "property": "C72",
   "status": "proved",
   "theorems": [
    "Amp.Chain.C72_delivered",
    "Amp.Chain.C72_to_nexus"
   ],
   "note": ""
  },
  {
   "property": "C73",
   "status": "proved",
   "theorems": [
    "Amp.Ampd.Evm.C73_verified_emitted",
    "Amp.Ampd.Evm.C73_worker_set_transferred",
    "Amp.Ampd.Sui.C73_verified_emitted",
    "Amp.Ampd.Sui.C73_worker_set_transferred"
   ],
   "note": ""
  },
  {
   "property": "C74",
   "status": "partial",
   "theorems": [
    "Amp.Chain.C74_counterexample",
    "Amp.Chain.C74_same_content_partial",
    "Amp.Chain.C74_canonical_partial",
    "Amp.Chain.C74_canonical_h256_partial"
   ],
   "note": "False of the code: ids are not checked for canonical spelling, so one event of the source chain can be verified, routed and signed as two messages with different ids and command ids (C74_counterexample, in the composed system with honest daemons). Proved: such messages agree in content (C74_same_content_partial), and different canonical ids name different events (C74_canonical_partial, C74_canonical_h256_partial)."
  },
  {
   "property": "C75",
   "status": "proved",
   "theorems": [
    "Amp.Chain.C75_delivered_emitted",
    "Amp.Chain.C75_to_nexus_emitted"
   ],
   "note": ""
  },
  {
   "property": "C76",
   "status": "proved",
   "theorems": [
    "Amp.Chain.C76_signed_verified",
    "Amp.Chain.C76_shown_verified",
    "Amp.Chain.C76_signed_emitted"
   ],
   "note": ""
  },
  {
   "property": "C77",
   "status": "proved",
   "theorems": [
    "Amp.Ampd.Signing.C77_submits_only",
    "Amp.Ampd.Signing.C77_consults_only",
    "Amp.Ampd.Signing.C77_submits",
    "Amp.Ampd.Signing.C77_accepted",
    "Amp.Ampd.Signing.C77_completes",
    "Amp.Ampd.Signing.C77_daemons_complete",
    "Amp.Ampd.Signing.C77_bad_key_stalls",
    "Amp.Ampd.Signing.C77_unreadable_digest_stalls"
   ],
   "note": ""
  },
  {
   "property": "C78",
   "status": "proved",
   "theorems": [
    "Amp.Ampd.Evm.C78_evm_daemons_verify",
    "Amp.Ampd.Sui.C78_sui_daemons_verify",
    "Amp.VV.C78_quorum_verifies",
    "Amp.VV.C78_votes_verify"
   ],
   "note": ""
  },
  {
   "property": "C79",
   "status": "partial",
   "theorems": [
    "Amp.VV.C79_quorum_verifies_partial",
    "Amp.VV.C79_stalled",
    "Amp.VV.C79_counterexample"
   ],
   "note": "False of the code: while votes are on their way anyone can open another poll about the same set, and only the latest poll counts (C79_counterexample; C79_stalled shows it for all histories of that kind). Proved when nobody asks again until the quorum is reached (C79_quorum_verifies_partial)."
  },
  {
   "property": "C80",
   "status": "proved",
   "theorems": [
    "Amp.Chain.C80_route_delivers",
    "Amp.Chain.C80_confirmed_verified",
    "Amp.Chain.C80_confirmed_delivered"
   ],
   "note": ""
  },
  {
   "property": "C81",
   "status": "proved",
   "theorems": [
    "Amp.Chain.C81_refines",
    "Amp.Chain.C81_pays",
    "Amp.Chain.C81_backed_registry",
    "Amp.Chain.C81_backed_rewards",
    "Amp.Chain.C81_claim",
    "Amp.Chain.C81_distribution"
   ],
   "note": ""
  },
  {
   "property": "C83",
   "status": "proved",
   "theorems": [
    "Amp.Chain.C83_signature",
    "Amp.Chain.C83_end_poll",
    "Amp.Rewards.C83_record_accepted"
   ],
   "note": ""
  },
  {
   "property": "C84",
   "status": "proved",
   "theorems": [
    "Amp.Chain.C84_signing_rewards",
    "Amp.Chain.C84_voting_rewards"
   ],
   "note": ""
  },
  {
   "property": "C82",
   "status": "proved",
   "theorems": [
    "Amp.Chain.C82_completed",
    "Amp.Chain.C82_requested",
    "Amp.Chain.C82_again"
   ],
   "note": ""
  },
  {
   "property": "C85",
   "status": "proved",
   "theorems": [
    "Amp.Prover.C85_batch",
    "Amp.Prover.C85_payload"
   ],
   "note": ""
  },
  {
   "property": "C86",
   "status": "proved",
   "theorems": [
    "Amp.Chain.C86_rotation_verified",
    "Amp.Chain.C86_rotation_transferred",
    "Amp.Chain.C86_first",
    "Amp.Chain.C86_requested",
    "Amp.Chain.C86_confirmed"
   ],
   "note": ""
  },
  {
   "property": "C87",
   "status": "partial",
   "theorems": [
    "Amp.Ampd.C87_accepts",
    "Amp.Ampd.C87_labels",
    "Amp.Ampd.C87_listened",
    "Amp.Ampd.C87_all_listened",
    "Amp.Ampd.C87_counterexample",
    "Amp.Ampd.C87_one_answer_partial",
    "Amp.Ampd.C87_finality",
    "Amp.Ampd.C87_own_name",
    "Amp.Ampd.C87_two_answers"
   ],
   "note": "False of the code in two corners, each with a concrete configuration (C87_counterexample, C87_two_answers). C87_accepts, C87_labels, C87_listened and C87_finality are full characterisations; C87_one_answer_partial assumes that names differ in more than capitals and that Sui and EVM handlers of one kind have different contracts."
  },
  {
   "property": "C88",
   "status": "proved",
   "theorems": [
    "Amp.Store.C88_router",
    "Amp.Store.C88_gateway",
    "Amp.Store.C88_nexus",
    "Amp.Store.C88_prover",
    "Amp.Store.C88_multisig",
    "Amp.Store.C88_rewards",
    "Amp.Store.C88_registry",
    "Amp.Store.C88_verifier",
    "Amp.Store.C88_builds",
    "Amp.Store.C88_session_signatures",
    "Amp.Store.C88_chain_workers",
    "Amp.Store.C88_gateway_chains"
   ],
   "note": ""
  },
  {
   "property": "C89",
   "status": "proved",
   "theorems": [
    "Amp.Chain.C89_asked",
    "Amp.Chain.C89_verified",
    "Amp.Chain.C89_delivered",
    "Amp.Chain.C89_proved"
   ],
   "note": ""
  },
  {
   "property": "C90",
   "status": "proved",
   "theorems": [
    "Amp.Chain.C90_joined",
    "Amp.Chain.C90_polled",
    "Amp.Chain.C90_first_set",
    "Amp.Chain.C90_bond_accepted",
    "Amp.Chain.C90_declare_accepted",
    "Amp.Chain.C90_register_accepted"
   ],
   "note": ""
  },
  {
   "property": "C91",
   "status": "partial",
   "theorems": [
    "Amp.Ampd.Signing.C91_signs_partial",
    "Amp.Ampd.Signing.C91_never_signs",
    "Amp.Ampd.Signing.C91_stalls",
    "Amp.Ampd.Signing.C91_no_session_completes",
    "Amp.Ampd.Signing.C91_counterexample"
   ],
   "note": "False of the code (C91_counterexample): signatures are asked for under another key id than the one under which the registered key was generated. C91_signs_partial covers configurations in which the two ids are the same; C91_never_signs, C91_stalls and C91_no_session_completes prove the failure in general."
  },
  {
   "property": "C92",
   "status": "partial",
   "theorems": [
    "Amp.Ampd.C92_never_again",
    "Amp.Ampd.C92_counterexample",
    "Amp.Ampd.C92_transactions",
    "Amp.Ampd.C92_origin",
    "Amp.Ampd.C92_answered",
    "Amp.Ampd.C92_answered_partial",
    "Amp.Chain.C92_verified",
    "Amp.Chain.C92_proved"
   ],
   "note": "False across restarts when broadcasting fails in a process that then writes its state (C92_counterexample, C92_never_again). C92_answered_partial excludes that; C92_transactions, C92_origin and C92_answered (within a process) have no such restriction, and C92_verified and C92_proved are the end-to-end consequences."
  },
  {
   "property": "C93",
   "status": "partial",
   "theorems": [
    "Amp.Ampd.C93_complete",
    "Amp.Ampd.C93_result",
    "Amp.Ampd.C93_stops",
    "Amp.Ampd.C93_shutdown",
    "Amp.Ampd.C93_reported_partial",
    "Amp.Ampd.C93_unreported",
    "Amp.Ampd.C93_silent",
    "Amp.Ampd.C93_counterexample",
    "Amp.Ampd.C93_counterexample_flush",
    "Amp.Ampd.C93_stops_after_block"
   ],
   "note": "The last sentence is false of the code (C93_silent, C93_counterexample, C93_counterexample_flush). C93_complete, C93_result, C93_stops and C93_shutdown prove the rest in full; C93_reported_partial says when a failure is reported, C93_unreported what is behind an unreported one."
  },
  {
   "property": "C94",
   "status": "proved",
   "theorems": [
    "Amp.Wire.C94_vote",
    "Amp.Wire.C94_submit_signature",
    "Amp.Wire.C94_format",
    "Amp.Wire.C94_evm_messages",
    "Amp.Wire.C94_sui_messages",
    "Amp.Wire.C94_evm_worker_set",
    "Amp.Wire.C94_sui_worker_set",
    "Amp.Wire.C94_signing",
    "Amp.Wire.C94_plain",
    "Amp.Wire.C94_digest",
    "Amp.Wire.C94_verifier_fits",
    "Amp.Wire.C94_multisig_fits",
    "Amp.Wire.C94_evm_handlers",
    "Amp.Wire.C94_sui_handlers",
    "Amp.Wire.C94_signing_handler",
    "Amp.Wire.C94_digest_stalls",
    "Amp.Wire.C94_chain_name_stalls"
   ],
   "note": "Readers characterised by iff: C94_evm_messages, C94_sui_messages, C94_evm_worker_set, C94_sui_worker_set, C94_signing; range: C94_verifier_fits, C94_multisig_fits; exceptions: C94_plain, C94_digest, C94_format, C94_digest_stalls, C94_chain_name_stalls; C94_*_handlers join this with C70, C73, C77; C94_vote and C94_submit_signature are the way back."
  },
  {
   "property": "C95",
   "status": "proved",
   "theorems": [
    "Amp.Wire.C95_zero_counterexample",
    "Amp.Wire.C95_read",
    "Amp.Wire.C95_typed",
    "Amp.Wire.C95_distinct",
    "Amp.Wire.C95_history",
    "Amp.Wire.C95_delivered",
    "Amp.Wire.C95_sent",
    "Amp.Wire.C95_written"
   ],
   "note": "C95_read, C95_typed, C95_distinct per message; C95_history, C95_delivered, C95_sent, C95_written over histories. The RouteMessages of gateway, router and nexus gateway are the same JSON and are one message in the statements (`routed`). A type named nonempty that lets zero through is C95_zero_counterexample (the range claimed does not include it)."
  },
  {
   "property": "C96",
   "status": "proved",
   "theorems": [
    "Amp.Wire.C96_answer",
    "Amp.Wire.C96_call",
    "Amp.Wire.C96_proof",
    "Amp.Wire.C96_distinct"
   ],
   "note": "C96_answer for every question, contract and history; C96_call and C96_proof for what is done with the answers; C96_distinct. C95_history is about the chain whose contracts also ask by text. Queries for users only are in C111."
  },
  {
   "property": "C97",
   "status": "proved",
   "theorems": [
    "Amp.Wire.C97_worker_set",
    "Amp.Wire.C97_operators",
    "Amp.Wire.C97_message",
    "Amp.Wire.C97_registered",
    "Amp.Wire.C97_signed_verified"
   ],
   "note": "C97_worker_set, C97_operators, C97_message; C97_registered discharges the assumption SetsDistinctAt of C58, C76, C82, C86 and C89 up to a collision of Keccak-256 on two texts, and C97_signed_verified is C76 with texts and hashes throughout."
  },
  {
   "property": "C98",
   "status": "proved",
   "theorems": [
    "Amp.Wire.C98_range",
    "Amp.Wire.C98_load",
    "Amp.Wire.C98_hash_order"
   ],
   "note": "C98_range, C98_load, C98_hash_order; assumes that Keccak-256 and the parsing of EVM addresses give bytes (Octets) and that the setup is in range. Stated between transactions; configurations are in C104."
  },
  {
   "property": "C99",
   "status": "proved",
   "theorems": [
    "Amp.Proto.C99_node_reads",
    "Amp.Proto.C99_one_signature",
    "Amp.Proto.C99_sign_bytes",
    "Amp.Proto.C99_fresh",
    "Amp.Proto.C99_contracts_read",
    "Amp.Proto.C99_simulated"
   ],
   "note": "C99_node_reads, C99_one_signature, C99_sign_bytes, C99_fresh, C99_contracts_read, C99_simulated; for byte strings shorter than 2^64; speaks of sign bytes, not of their SHA-256."
  },
  {
   "property": "C100",
   "status": "partial",
   "theorems": [
    "Amp.Proto.C100_base_partial",
    "Amp.Proto.C100_kind_unchecked",
    "Amp.Proto.C100_first_partial"
   ],
   "note": "Proved for BaseAccount (C100_base_partial, C100_first_partial). The full statement fails: the kind of account is not checked (C100_kind_unchecked)."
  },
  {
   "property": "C101",
   "status": "partial",
   "theorems": [
    "Amp.Ampd.DecCoin.C101_text",
    "Amp.Ampd.DecCoin.C101_round_partial",
    "Amp.Ampd.DecCoin.C101_config",
    "Amp.Ampd.DecCoin.C101_proto",
    "Amp.Ampd.DecCoin.C101_not_round"
   ],
   "note": "What is accepted and what it means (C101_text), prices from configurations (C101_config) and the form with separate parts (C101_proto) are proved in full; the round trip of every price that can be made fails (C101_not_round), C101_round_partial gives the condition. f64 is a parameter (Lib.Std)."
  },
  {
   "property": "C102",
   "status": "partial",
   "theorems": [
    "Amp.Ampd.C102_in_step_partial",
    "Amp.Ampd.C102_other_use",
    "Amp.Ampd.C102_shared_account"
   ],
   "note": "C102_in_step_partial: if nobody else uses the account. The full statement fails because commands share the account (C102_shared_account, C102_other_use)."
  },
  {
   "property": "C103",
   "status": "partial",
   "theorems": [
    "Amp.Report.C103_shown",
    "Amp.Report.C103_text",
    "Amp.Report.C103_cause_partial",
    "Amp.Report.C103_joined",
    "Amp.Report.C103_cause_counterexample"
   ],
   "note": "C103_shown and C103_text hold of all reports; C103_cause_partial of reports that were not joined. Joined reports show the second failure as the cause of the first (C103_joined, C103_cause_counterexample)."
  },
  {
   "property": "C104",
   "status": "proved",
   "theorems": [
    "Amp.Wire.C104_read",
    "Amp.Wire.C104_typed",
    "Amp.Wire.C104_load",
    "Amp.Wire.C104_setup",
    "Amp.Wire.C104_forever",
    "Amp.Wire.C104_range",
    "Amp.Wire.C104_history",
    "Amp.Wire.C104_end_poll"
   ],
   "note": "All contracts exist from the start of a history here (C105 removes that); texts of addresses that are read as themselves, and block heights in u64, are assumed as in C95."
  },
  {
   "property": "C105",
   "status": "proved",
   "theorems": [
    "Amp.Chain.C105_deployed",
    "Amp.Chain.C105_founded",
    "Amp.Chain.C105_delivered",
    "Amp.Wire.C105_text",
    "Amp.Wire.C105_history",
    "Amp.Wire.C105_delivered_text"
   ],
   "note": "An instantiation is a transaction of its own, and no contract has the address of a user or of a contract outside the model."
  },
  {
   "property": "C106",
   "status": "partial",
   "theorems": [
    "Amp.Wire.Api.C106_name",
    "Amp.Wire.Api.C106_same_chain",
    "Amp.Wire.Api.C106_capital",
    "Amp.Wire.Api.C106_clients",
    "Amp.Wire.Api.C106_admin_partial",
    "Amp.Wire.Api.C106_refused",
    "Amp.Wire.Api.C106_not_read",
    "Amp.Wire.Api.C106_unnameable"
   ],
   "note": "Proved for messages without cross-chain messages (C106_admin_partial). The full statement fails: every message with some is refused by every contract (C106_refused). Assumes that to_lowercase acts on ASCII as usual (OnAscii)."
  },
  {
   "property": "C107",
   "status": "partial",
   "theorems": [
    "Amp.Wire.C107_frozen_counterexample",
    "Amp.Wire.C107_votes_counterexample",
    "Amp.Wire.C107_gateway_counterexample",
    "Amp.Wire.C107_gateway",
    "Amp.Wire.C107_router",
    "Amp.Wire.C107_key",
    "Amp.Wire.C107_caller",
    "Amp.Wire.C107_multisig",
    "Amp.Wire.C107_id_counterexample",
    "Amp.Wire.C107_verifier",
    "Amp.Wire.C107_worker_set"
   ],
   "note": "Proved for the gateways of chains, GetMessages, GetPublicKey, authorization, GetMultisig, and IsVerified and IsWorkerSetVerified once polls were ended. Assumes that nothing registered with the router is itself a router or a gateway of another router, and that the chain hands attributes out as written. The full statement fails: C107_frozen_counterexample, C107_votes_counterexample, C107_id_counterexample."
  },
  {
   "property": "C108",
   "status": "partial",
   "theorems": [
    "Amp.Ampd.C108_in_use_partial",
    "Amp.Ampd.C108_refused",
    "Amp.Ampd.C108_paths",
    "Amp.Ampd.C108_mistaken",
    "Amp.Ampd.C108_idle",
    "Amp.Ampd.C108_success",
    "Amp.Ampd.C108_state",
    "Amp.Ampd.C108_unreadable",
    "Amp.Ampd.C108_counterexample"
   ],
   "note": "C108_in_use_partial and C108_refused say exactly what is in use and what is refused. That a refused configuration makes the process fail is false (C108_mistaken, C108_success, C108_counterexample), and so is that a state file that cannot be read stays as it is (C108_unreadable). How the config crate merges sources is taken from its documentation."
  },
  {
   "property": "C109",
   "status": "partial",
   "theorems": [
    "Amp.Chain.C109_counterexample",
    "Amp.Chain.C109_content_partial",
    "Amp.Chain.C109_apart"
   ],
   "note": "False of the code in the corner of C58 (C109_counterexample, in the composed system). C109_content_partial: in all histories in which no batch with a transfer has the id of another batch; C109_apart says when that is so. Worker sets registered at the multisig contract do not collide (SetsDistinctAt), as in C76."
  },
  {
   "property": "C110",
   "status": "partial",
   "theorems": [
    "Amp.Ampd.Evm.C110_counterexample",
    "Amp.Ampd.Evm.C110_call",
    "Amp.Ampd.Evm.C110_transfer",
    "Amp.Ampd.Evm.C110_says_call",
    "Amp.Ampd.Evm.C110_says_transfer",
    "Amp.Ampd.Evm.C110_voted",
    "Amp.Ampd.Evm.C110_votes",
    "Amp.Ampd.Evm.C110_sets",
    "Amp.Ampd.Evm.C110_sets_voted",
    "Amp.Ampd.Evm.C110_bytes_partial",
    "Amp.Chain.C110_delivered",
    "Amp.Chain.C110_signed"
   ],
   "note": "Proved for all bytes, with the names as from_utf8_lossy reads them; byte for byte if the names in the message have no replacement character (C110_bytes_partial). The full statement fails: C110_counterexample. The generated decoder and ethabi are not in /repo and are transcribed; for transfers, no other event of the gateway has the same first topic (TopicsApart)."
  },
  {
   "property": "C111",
   "status": "partial",
   "theorems": [
    "Amp.Wire.C111_counterexample",
    "Amp.Wire.C111_answer_partial",
    "Amp.Wire.C111_worker",
    "Amp.Wire.C111_distinct",
    "Amp.Wire.C111_proof_partial"
   ],
   "note": "C111_answer_partial for all questions but GetWorker, which is false of the code (C111_counterexample; C111_worker says what it answers). C111_proof_partial needs, as C109, that batches with a transfer have ids of their own. Assumes that recovery ids are at most 3 (FourIds) and, as C98, that Keccak-256 and address parsing give bytes. GetPoll is todo!() in the code and has no answer."
  },
  {
   "property": "C112",
   "status": "proved",
   "theorems": [
    "Amp.Wire.C112_call",
    "Amp.Wire.C112_transfer",
    "Amp.Wire.C112_one",
    "Amp.Wire.C112_shown",
    "Amp.Wire.C112_shown_transfer",
    "Amp.Wire.C112_voted",
    "Amp.Wire.C112_votes",
    "Amp.Wire.C112_voted_worker_set",
    "Amp.Wire.C112_votes_worker_set",
    "Amp.Chain.C112_delivered",
    "Amp.Chain.C112_signed"
   ],
   "note": "For all JSON values. Names of chains are compared in lower case, as the code does. The readers of SuiAddress and Hash are libraries that are not in /repo and are transcribed. The reply of the node around the contents (sui-sdk) stays a parameter."
  },
  {
   "property": "C113",
   "status": "partial",
   "theorems": [
    "Amp.Wire.C113_honest",
    "Amp.Wire.C113_delivered",
    "Amp.Wire.C113_proof_partial"
   ],
   "note": "C113_honest and C113_delivered without further conditions. C113_proof_partial needs, as C109 and C111, that batches with a transfer have ids of their own, which is false of the code (C109_counterexample). Assumes that names of contracts (addresses) send no transactions (TextApart), heights and amounts in range, Keccak-256 and address parsing give bytes, and recovery ids are at most 3."
  },
  {
   "property": "C114",
   "status": "proved",
   "theorems": [
    "Amp.Wire.C114_again",
    "Amp.Wire.C114_asked",
    "Amp.Wire.C114_verified",
    "Amp.Wire.C114_accepted",
    "Amp.Wire.C114_delivered",
    "Amp.Wire.C114_requested",
    "Amp.Wire.C114_signed",
    "Amp.Wire.C114_proved"
   ],
   "note": "Assumes that names of contracts (addresses) send no transactions (TextApart), heights and amounts in range, and that the gateways that the router knows are gateways of this repository; for proofs also that ids of worker sets (hashes) do not collide, that the batch is below 2 GiB, and, for the acceptance of a signature, that blocks come in order and the rewards contract is the one of this repository."
  },
  {
   "property": "C115",
   "status": "partial",
   "theorems": [
    "Amp.Wire.C115_first",
    "Amp.Wire.C115_handover",
    "Amp.Wire.C115_confirmed",
    "Amp.Wire.C115_asked",
    "Amp.Wire.C115_votes_sui",
    "Amp.Wire.C115_votes_evm",
    "Amp.Wire.C115_accepted",
    "Amp.Wire.C115_verified_partial",
    "Amp.Wire.C115_transferred"
   ],
   "note": "(5) is false of the code, for the reason of C79 (C79_counterexample): anyone may open another poll about the same set while votes are on their way. C115_verified_partial proves it when nobody asks again until the quorum is reached. The other parts are proved in full; they assume TextApart, heights and amounts in range, and for the handover that ids of worker sets (hashes) do not collide."
  },
  {
   "property": "C116",
   "status": "proved",
   "theorems": [
    "Amp.Wire.C116_bond",
    "Amp.Wire.C116_declare",
    "Amp.Wire.C116_register",
    "Amp.Wire.C116_joined",
    "Amp.Wire.C116_polled",
    "Amp.Wire.C116_member"
   ],
   "note": "Assumes TextApart, heights and amounts in range, and that public keys are sequences of bytes. That what was taken still stands is said about the log of delivered messages, as in C90."
  },
  {
   "property": "C117",
   "status": "proved",
   "theorems": [
    "Amp.Wire.C117_signing",
    "Amp.Wire.C117_voting",
    "Amp.Wire.C117_paid"
   ],
   "note": "Assumes TextApart, heights and amounts in range; for voting also that blocks come in order. For (2) the sum of the epochs paid and the number asked for is below 2^64 (beyond it the code aborts). That the transfers of the bank module go through is C81."
  },
  {
   "property": "C118",
   "status": "proved",
   "theorems": [
    "Amp.Wire.C118_unbond",
    "Amp.Wire.C118_claim",
    "Amp.Wire.C118_active"
   ],
   "note": "Assumes TextApart, heights and amounts in range. That the transfer of the bank module goes through is C81 (a claim of nothing fails if the bank refuses payments of nothing)."
  },
  {
   "property": "C119",
   "status": "proved",
   "theorems": [
    "Amp.Wire.C119_freeze",
    "Amp.Wire.C119_unfreeze",
    "Amp.Wire.C119_stopped"
   ],
   "note": "Assumes TextApart, heights and amounts in range."
  }
 ]
}