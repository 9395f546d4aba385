{"id": "C01", "title": "Threshold validation is exact", "statement": "Building a Threshold from (n,d) succeeds exactly when n and d are both non-zero and n <= d; upgrading it to a MajorityThreshold succeeds exactly when additionally 2n > d. Every other pair is rejected. Comparison of two thresholds agrees with comparison of the rational numbers n/d.", "quantifier": "all pairs of u64 values", "why_tests_cant": "boundary behaviour of integer division (d/2) has to be right for every 64-bit pair", "anchors": ["packages/axelar-wasm-std/src/threshold.rs: Threshold, MajorityThreshold, TryFrom, PartialOrd"]}
{"id": "C02", "title": "Snapshot quorum is the exact ceiling and a strict majority", "statement": "For every non-empty list of participants with non-zero weights, the snapshot quorum is the least integer q with q/total >= threshold; it is non-zero, strictly more than half of the total weight and at most the total weight, so all participants together can always reach it.", "quantifier": "all participant lists and all majority thresholds", "why_tests_cant": "ceil rounding must hold for every total weight and every fraction", "anchors": ["packages/axelar-wasm-std/src/snapshot.rs: Snapshot::new"]}
{"id": "C03", "title": "Exact acceptance condition of a ballot", "statement": "A ballot is accepted exactly when the sender is a participant of the poll, the block height is strictly below the expiry, the ballot has one vote per poll item and the sender has not voted yet; otherwise the specific error is returned and nothing changes.", "quantifier": "all polls, senders, heights, ballots", "why_tests_cant": "the conjunction of guards must be right on every boundary", "anchors": ["packages/axelar-wasm-std/src/voting.rs: WeightedPoll::cast_vote"]}
{"id": "C04", "title": "One immutable ballot per participant", "statement": "In any history of calls on a poll each participant has at most one recorded ballot, and once recorded it is never changed or dropped; nobody outside the participants fixed at creation ever gets a ballot.", "quantifier": "all histories of cast/finish calls in any order and at any heights", "why_tests_cant": "needs all interleavings of voters and repeated attempts", "anchors": ["packages/axelar-wasm-std/src/voting.rs: WeightedPoll::cast_vote, finish"]}
{"id": "C05", "title": "Tallies are exactly the recorded ballots", "statement": "After any history, for every item and every vote option the tally equals the summed weight of those participants whose recorded ballot has that option at that item.", "quantifier": "all histories, all items, all options", "why_tests_cant": "a running counter against a recomputation for every history", "anchors": ["packages/axelar-wasm-std/src/voting.rs: Tallies::tally, WeightedPoll::cast_vote"]}
{"id": "C06", "title": "At most one outcome can reach quorum and it never flips", "statement": "With a quorum that is a strict majority of the total weight, two different options can never both reach quorum for an item; hence the reported consensus of an item, once present, stays the same whatever ballots follow, and does not depend on the order in which options are examined.", "quantifier": "all polls created from a snapshot, all later histories", "why_tests_cant": "needs every split of weights among voters", "anchors": ["packages/axelar-wasm-std/src/voting.rs: Tallies::consensus, WeightedPoll::consensus, state"]}
{"id": "C07", "title": "A poll ends once, and only after expiry", "statement": "Finishing succeeds exactly when the poll is in progress and the height is at least the expiry; a finished poll cannot be finished again, and with non-decreasing block heights no ballot is accepted after it is finished, so the result reported at the end is final.", "quantifier": "all histories with non-decreasing heights", "why_tests_cant": "temporal property over unbounded histories", "anchors": ["packages/axelar-wasm-std/src/voting.rs: WeightedPoll::finish, cast_vote"]}
{"id": "C08", "title": "Consensus participants are exactly the agreeing voters", "statement": "The list of consensus participants reported for a poll contains each address at most once, in ascending address order, and contains an address iff it voted and its ballot agrees with the result at every item that has a result.", "quantifier": "all poll states", "why_tests_cant": "quantifies over every pattern of ballots and results", "anchors": ["packages/axelar-wasm-std/src/voting.rs: WeightedPoll::state"]}
{"id": "C09", "title": "Verified means a quorum of that poll voted for exactly that message", "statement": "If the verifier reports a message as verified after any history, then there is a poll, opened for a batch containing exactly this message (all fields equal), such that participants of that poll with total weight at least the quorum - more than half of the total weight of the active workers snapshotted when it was opened - recorded SucceededOnChain for it.", "quantifier": "all histories of all calls by any senders, all messages", "why_tests_cant": "safety over unbounded adversarial histories", "anchors": ["contracts/voting-verifier/src/query.rs: is_verified, msg_verification_status", "contracts/voting-verifier/src/execute.rs: verify_messages, vote"]}
{"id": "C10", "title": "Verification is permanent", "statement": "Once a message (or a worker set) is reported verified, every later query in every continuation reports it verified, whatever polls, votes or endings happen afterwards.", "quantifier": "all continuations of all histories", "why_tests_cant": "unbounded continuations", "anchors": ["contracts/voting-verifier/src/query.rs: verification_status", "contracts/voting-verifier/src/execute.rs"]}
{"id": "C11", "title": "A message is polled again only if it is not pending and not verified", "statement": "VerifyMessages puts exactly the messages of the batch whose status is NotVerified or FailedToVerify into the new poll, in the order given, opens no poll if there is none, and answers for every message of the batch whether it is verified; a message that is in progress or verified is never put into another poll.", "quantifier": "all states and batches", "why_tests_cant": "every mixture of statuses in a batch", "anchors": ["contracts/voting-verifier/src/execute.rs: verify_messages"]}
{"id": "C12", "title": "Poll identifiers are fresh and polls are isolated", "statement": "Successive polls get ids 1,2,3,... with no reuse; operations on one poll never change another poll; participants, weights, quorum, size and expiry of a poll never change after creation.", "quantifier": "all histories", "why_tests_cant": "history quantification", "anchors": ["contracts/voting-verifier/src/execute.rs: create_worker_set_poll, create_messages_poll", "packages/axelar-wasm-std/src/counter.rs"]}
{"id": "C13", "title": "Only messages from the configured source chain are polled", "statement": "A VerifyMessages call containing any message whose source chain differs from the configured chain, or no message, or a message whose id is not <non-empty tx id>:<u64>, changes nothing; every stored poll item belongs to the configured source chain.", "quantifier": "all batches and histories", "why_tests_cant": "every position of a bad message in a batch", "anchors": ["contracts/voting-verifier/src/execute.rs: verify_messages", "contracts/voting-verifier/src/events.rs: parse_message_id"]}
{"id": "C14", "title": "Distinct messages are tracked separately", "statement": "Polling one message never affects the verification of a different message. (FALSE as stated: the message hash concatenates fields without separators, so two different messages can share a key and then the second can neither be verified nor queried; what does hold is that a colliding message is never reported verified in place of the other.)", "quantifier": "all pairs of messages", "why_tests_cant": "needs a collision search over an infinite domain, or a proof", "anchors": ["contracts/connection-router/src/state.rs: Message::hash", "contracts/voting-verifier/src/query.rs: verification_status"]}
{"id": "C15", "title": "Ending a poll rewards exactly the consensus participants", "statement": "A successful EndPoll emits one participation record per consensus participant of that poll, with the poll id as event id, to the configured rewards contract, and nothing else; over any history each (poll, participant) pair is recorded at most once.", "quantifier": "all histories", "why_tests_cant": "at-most-once over all histories", "anchors": ["contracts/voting-verifier/src/execute.rs: end_poll"]}
{"id": "C16", "title": "Worker set confirmation is sound", "statement": "If the verifier reports a set of operators as verified, a quorum of the participants of a poll opened for exactly that operator set voted SucceededOnChain; a verified set cannot be polled again.", "quantifier": "all histories", "why_tests_cant": "safety over unbounded adversarial histories", "anchors": ["contracts/voting-verifier/src/execute.rs: verify_worker_set", "contracts/voting-verifier/src/query.rs: is_worker_set_verified, worker_set_verification_status"]}
{"id": "C17", "title": "A gateway belongs to at most one chain", "statement": "After any history of router calls no two registered chains have the same gateway address, so looking a chain up by its gateway never aborts and is unambiguous.", "quantifier": "all histories of calls by anyone", "why_tests_cant": "uniqueness invariant over histories of register/upgrade", "anchors": ["contracts/connection-router/src/state.rs: load_chain_by_gateway", "contracts/connection-router/src/contract/execute.rs: register_chain, upgrade_gateway"]}
{"id": "C18", "title": "Router administration is access controlled", "statement": "Chains appear and gateways change only by a call from the governance account, frozen directions change only by a call from the admin account; registered chains never disappear; calls from anybody else leave the registry unchanged.", "quantifier": "all histories, all senders", "why_tests_cant": "all senders and messages", "anchors": ["contracts/connection-router/src/contract.rs: execute", "contracts/connection-router/src/contract/execute.rs: require_admin, require_governance"]}
{"id": "C19", "title": "Frozen directions stop traffic", "statement": "While a chain has its incoming direction frozen no message sent by its gateway is routed; while it has its outgoing direction frozen no message is routed to it; a batch containing one such message is rejected as a whole. Unfrozen, registered chains are never rejected for freezing.", "quantifier": "all registries and batches", "why_tests_cant": "every position of the frozen destination in a batch", "anchors": ["contracts/connection-router/src/contract/execute.rs: validate_msgs, route_messages"]}
{"id": "C20", "title": "Freezing and unfreezing compose as sets of directions", "statement": "Freezing adds exactly the given directions and unfreezing removes exactly the given directions, independently of each other and of order repetition, and neither affects any other chain.", "quantifier": "all sequences of freeze/unfreeze", "why_tests_cant": "all sequences", "anchors": ["contracts/connection-router/src/contract/execute.rs: freeze_chain, unfreeze_chain", "contracts/connection-router/src/state.rs: ChainEndpoint"]}
{"id": "C21", "title": "Source chain authenticity", "statement": "A message accepted from an account other than the nexus gateway carries as source chain the chain for which that account is the registered gateway; accounts that are neither a registered gateway nor the nexus gateway cannot route anything.", "quantifier": "all registries, senders and batches", "why_tests_cant": "all senders", "anchors": ["contracts/connection-router/src/contract/execute.rs: validate_msgs"]}
{"id": "C22", "title": "Routing neither loses, duplicates, alters nor reorders messages", "statement": "When RouteMessages succeeds, the concatenation of the dispatched batches is exactly the input list, each batch is non-empty, has a single destination chain and goes to the gateway currently registered for it, or to the nexus gateway if the destination is not registered; one event is emitted per message.", "quantifier": "all registries and batches", "why_tests_cant": "conservation for every grouping", "anchors": ["contracts/connection-router/src/contract/execute.rs: route_messages"]}
{"id": "C23", "title": "Unknown destinations are only ever handed to nexus", "statement": "A message for an unregistered destination goes to the nexus gateway if it came from a registered gateway, and makes the whole call fail if it came from the nexus gateway itself, so no message bounces back to nexus.", "quantifier": "all registries and batches", "why_tests_cant": "all batches", "anchors": ["contracts/connection-router/src/contract/execute.rs: route_messages"]}
{"id": "C24", "title": "Cross-chain ids and chain names round-trip", "statement": "Printing and parsing a cross-chain id gives back the same id for every valid chain name and non-empty id; the printed form determines the id; chain names are case-insensitive, normalisation is idempotent, and names that are empty or contain the separator are rejected.", "quantifier": "all strings", "why_tests_cant": "all strings, including ids that contain the separator", "anchors": ["contracts/connection-router/src/state.rs: CrossChainId, ChainName"]}
{"id": "C25", "title": "Only verified messages leave the gateway towards the router", "statement": "When anyone but the router calls RouteMessages, the single message sent to the router contains exactly the messages of the batch that the verifier reports as verified, in order; if none is verified nothing is sent; unverified messages are never forwarded.", "quantifier": "all batches and all verifier answers", "why_tests_cant": "all answers, including partial and reordered ones", "anchors": ["contracts/gateway/src/contract/execute.rs: route_messages, route_incoming_messages, partition_by_verified"]}
{"id": "C26", "title": "Only unverified messages are sent for verification", "statement": "VerifyMessages forwards to the verifier exactly the messages of the batch not reported as verified, in order, and sends nothing when all are verified or the batch is empty.", "quantifier": "all batches and answers", "why_tests_cant": "all answers", "anchors": ["contracts/gateway/src/contract/execute.rs: verify_messages"]}
{"id": "C27", "title": "Outgoing messages come only from the router", "statement": "The outgoing message stored under an id is always the last message with that id delivered by the router; calls by anybody else never change the store; a query for ids returns the stored messages in the order asked for, or fails if one is missing.", "quantifier": "all histories and senders", "why_tests_cant": "all histories", "anchors": ["contracts/gateway/src/contract/execute.rs: route_outgoing_messages", "contracts/gateway/src/contract/query.rs: get_messages"]}
{"id": "C28", "title": "Batches with repeated ids are rejected", "statement": "VerifyMessages and RouteMessages are rejected for duplicate ids, without effect, exactly when two messages of the batch share a cross-chain id; nothing with a repeated id is ever forwarded.", "quantifier": "all batches", "why_tests_cant": "all positions of a duplicate", "anchors": ["contracts/gateway/src/contract/execute.rs: ensure_unique_ids"]}
{"id": "C29", "title": "Each message is forwarded to nexus at most once", "statement": "Over any history of calls, a cross-chain id is forwarded to the nexus module at most once. (FALSE of the contract alone, for one call containing the same id twice. It holds in the composed system: behind the router and gateways of this repository no batch repeats an id.)", "quantifier": "all histories", "why_tests_cant": "at-most-once over all histories", "anchors": ["contracts/nexus-gateway/src/contract/execute.rs: route_to_nexus", "contracts/nexus-gateway/src/state.rs"]}
{"id": "C30", "title": "Nexus gateway entry points are access controlled", "statement": "Only the router can hand messages to nexus and only the nexus module account can inject messages into the router; every other caller is rejected without effect.", "quantifier": "all senders and batches", "why_tests_cant": "all senders", "anchors": ["contracts/nexus-gateway/src/contract/execute.rs"]}
{"id": "C31", "title": "Message ids survive the conversion to and from nexus", "statement": "A nexus message converted to a router message and back has the same source tx id, index, chains, addresses and payload hash.", "quantifier": "all nexus messages", "why_tests_cant": "all byte strings and indices", "anchors": ["contracts/nexus-gateway/src/nexus.rs: parse_message_id, From<Message>"]}
{"id": "C32", "title": "Bonds are conserved", "statement": "For every service and denomination-consistent history, the sum of all recorded bonds equals the sum of bonded deposits minus the sum of payouts; in particular the contract always holds enough coins to pay every bond.", "quantifier": "all histories of all calls by all workers", "why_tests_cant": "money conservation over all histories", "anchors": ["contracts/service-registry/src/contract.rs: bond_worker, unbond_worker, claim_stake", "contracts/service-registry/src/state.rs: BondingState"]}
{"id": "C33", "title": "Stake is released only to its owner, once, and only after the unbonding period", "statement": "A payout goes to the worker that bonded, has exactly the bonded amount, happens only if the worker unbonded at least the unbonding period earlier, and is not repeated until the worker bonds again.", "quantifier": "all histories and times", "why_tests_cant": "temporal property", "anchors": ["contracts/service-registry/src/contract.rs: claim_stake", "contracts/service-registry/src/state.rs: BondingState::claim_stake"]}
{"id": "C34", "title": "Active workers are exactly the eligible ones", "statement": "The active workers of a service for a chain are exactly the workers that declared support for the chain, are currently bonded with at least the minimum bond and are authorised, each once, in ascending address order with weight one.", "quantifier": "all registry states", "why_tests_cant": "all states", "anchors": ["contracts/service-registry/src/contract.rs: query::get_active_workers"]}
{"id": "C35", "title": "Authorisation is decided by governance alone", "statement": "A worker authorisation state changes only through a governance call naming that worker and service; bonding, unbonding, claiming and declaring support never change it; a worker never seen before is unauthorised; services are registered only by governance and never overwritten.", "quantifier": "all histories and senders", "why_tests_cant": "all histories", "anchors": ["contracts/service-registry/src/contract.rs: update_worker_authorization_status, bond_worker, register_service"]}
{"id": "C36", "title": "The worker lifecycle allows only legal transitions", "statement": "The bonding state of a worker in a service changes only by its own calls: bonding (from any state) makes it Bonded with the previous amount plus the coins sent and is rejected when that total is zero for a known worker; unbonding is possible exactly while Bonded, keeps the amount and records the current time; claiming is possible only from Unbonding after the period and leaves Unbonded. So the state always follows from the last own call and the deposits not yet paid out.", "quantifier": "all states and calls", "why_tests_cant": "all states", "anchors": ["contracts/service-registry/src/state.rs: BondingState"]}
{"id": "C37", "title": "Worker queries answer about the worker asked for", "statement": "GetWorker{service, worker} returns the stored record of that worker in that service. (FALSE: the entry point swaps the two arguments.)", "quantifier": "all states and queries", "why_tests_cant": "any service/worker pair with different names", "anchors": ["contracts/service-registry/src/contract.rs: query"]}
{"id": "C38", "title": "An epoch is paid out at most once", "statement": "Over any history of a pool, the sets of epochs processed by successive successful distributions are consecutive, disjoint intervals starting at epoch 0, each finished at least two epochs earlier.", "quantifier": "all histories of records, deposits, parameter changes and distributions", "why_tests_cant": "at-most-once over all histories", "anchors": ["contracts/rewards/src/contract/execute.rs: distribute_rewards, process_rewards_for_epochs"]}
{"id": "C39", "title": "Reward pools are conserved and never overdrawn", "statement": "For every pool: deposits = balance + everything ever paid; a distribution pays exactly what it subtracts from the pool and fails without effect if the pool is too small.", "quantifier": "all histories", "why_tests_cant": "money conservation", "anchors": ["contracts/rewards/src/contract/execute.rs: distribute_rewards, add_rewards", "contracts/rewards/src/state.rs: RewardsPool::sub_reward"]}
{"id": "C40", "title": "Epoch payout is bounded and equal", "statement": "For each epoch the total paid is at most the rewards per epoch in force, every eligible worker gets the same share (the floor of the equal division) and everyone else gets nothing.", "quantifier": "all tallies", "why_tests_cant": "all participation patterns", "anchors": ["contracts/rewards/src/state.rs: EpochTally::rewards_by_worker"]}
{"id": "C41", "title": "Eligibility is exactly the participation threshold", "statement": "A worker is rewarded for an epoch iff the number of its participations divided by the number of events reaches the participation threshold and does not exceed one.", "quantifier": "all tallies", "why_tests_cant": "all counts", "anchors": ["contracts/rewards/src/state.rs: EpochTally::workers_to_reward"]}
{"id": "C42", "title": "Tallies count distinct events and all records", "statement": "After any history, the event count of an epoch tally equals the number of distinct events whose first record fell in that epoch, a worker count equals the number of records made for those events, and an event stays in the epoch of its first record.", "quantifier": "all histories", "why_tests_cant": "all histories", "anchors": ["contracts/rewards/src/contract/execute.rs: record_participation, load_or_store_event"]}
{"id": "C43", "title": "Epochs advance monotonically through parameter changes", "statement": "With non-decreasing heights and any number of governance parameter updates, the current epoch number never decreases, never skips a number because of an update, and the epoch start never lies in the future.", "quantifier": "all schedules of updates and heights", "why_tests_cant": "all schedules", "anchors": ["contracts/rewards/src/contract/execute.rs: current_epoch, update_params", "contracts/rewards/src/state.rs: Epoch::current"]}
{"id": "C44", "title": "Rewards administration is access controlled", "statement": "Only governance changes parameters, a parameter change touches neither pools nor recorded tallies, deposits must be exactly one non-zero coin of the reward denomination, and records are credited to the calling contract only.", "quantifier": "all senders and messages", "why_tests_cant": "all senders", "anchors": ["contracts/rewards/src/contract.rs: execute", "contracts/rewards/src/contract/execute.rs: require_governance"]}
{"id": "C45", "title": "A completed session carries enough valid signatures", "statement": "If a signing session is reported completed, distinct members of its worker set whose weights sum to at least the set threshold have each had a signature recorded that verified under that member key in the set against exactly the session message.", "quantifier": "all histories, all (abstract) signature schemes", "why_tests_cant": "safety over all adversarial histories", "anchors": ["contracts/multisig/src/contract.rs: submit_signature", "contracts/multisig/src/signing.rs: SigningSession", "contracts/multisig/src/state.rs: save_signature"]}
{"id": "C46", "title": "Completion is recorded at the first moment the threshold is met and never undone", "statement": "A session turns completed in the very call that brings the recorded weight to the threshold, with that block height; afterwards the height never changes, the session never becomes pending again and no recorded signature is removed or replaced.", "quantifier": "all histories", "why_tests_cant": "temporal property", "anchors": ["contracts/multisig/src/signing.rs: recalculate_session_state", "contracts/multisig/src/contract.rs: submit_signature"]}
{"id": "C47", "title": "Exact acceptance condition of a signature", "statement": "A signature is accepted exactly when the session exists, the sender is in the worker set, the signature parses for and verifies under its key, the sender has none recorded yet, and the session is pending or completed no more than the grace period ago.", "quantifier": "all states, senders, signatures, heights", "why_tests_cant": "all boundaries", "anchors": ["contracts/multisig/src/signing.rs: validate_session_signature", "contracts/multisig/src/contract.rs: submit_signature"]}
{"id": "C48", "title": "Sessions are unique and started only by authorised callers", "statement": "Session ids are consecutive and never reused, a session keeps its message and worker set for ever, sessions are created only by callers authorised by governance, and the caller list changes only by governance.", "quantifier": "all histories", "why_tests_cant": "all histories", "anchors": ["contracts/multisig/src/contract.rs: execute, start_signing_session"]}
{"id": "C49", "title": "A worker set id always denotes the same worker set", "statement": "If the hash has no collisions, the worker set stored under an id never changes, whoever registers what.", "quantifier": "all histories of (permissionless) registrations", "why_tests_cant": "all histories", "anchors": ["contracts/multisig/src/contract.rs: register_worker_set", "contracts/multisig/src/worker_set.rs: id"]}
{"id": "C50", "title": "Every accepted signature is credited once", "statement": "Each accepted signature emits exactly one participation record for (session, signer) to the rewards contract; completion is announced exactly once per session, with the height at which it was completed.", "quantifier": "all histories", "why_tests_cant": "exactly-once over all histories", "anchors": ["contracts/multisig/src/contract.rs: signing_response"]}
{"id": "C51", "title": "Key registration is per account and key type", "statement": "The public key reported for (worker, type) is the last one that worker registered of that type; nobody can change another worker key, and keys and signatures have exactly the length of their type.", "quantifier": "all histories", "why_tests_cant": "all histories", "anchors": ["contracts/multisig/src/contract.rs: register_pub_key", "contracts/multisig/src/key.rs"]}
{"id": "C52", "title": "The worker set changes only when the rotation is confirmed", "statement": "The current worker set is set by the first update and afterwards changes only in ConfirmWorkerSet, to the pending set, and only if the verifier reports that very operator set as verified.", "quantifier": "all histories", "why_tests_cant": "safety over all histories", "anchors": ["contracts/multisig-prover/src/execute.rs: update_worker_set, confirm_worker_set"]}
{"id": "C53", "title": "Only one rotation is in flight", "statement": "While a set of signers is pending, a different set of signers can not replace it through UpdateWorkerSet or ConstructProof; pending is cleared only by confirmation.", "quantifier": "all histories", "why_tests_cant": "all histories", "anchors": ["contracts/multisig-prover/src/execute.rs: save_next_worker_set, different_set_in_progress"]}
{"id": "C54", "title": "A rotation is started exactly when membership changed enough", "statement": "A new worker set is proposed iff the number of signers joining plus leaving exceeds the configured difference threshold.", "quantifier": "all pairs of worker sets", "why_tests_cant": "all sets", "anchors": ["contracts/multisig-prover/src/execute.rs: should_update_worker_set"]}
{"id": "C55", "title": "Proofs carry the fewest signatures that reach the quorum", "statement": "The signatures kept in a proof belong to recorded signers, weigh at least the threshold whenever all recorded signatures do, and no smaller number of recorded signatures would do.", "quantifier": "all worker sets, all signature subsets", "why_tests_cant": "all weight distributions", "anchors": ["contracts/multisig-prover/src/query.rs: optimize_signers"]}
{"id": "C56", "title": "Batch ids ignore order and identify the batch", "statement": "The batch id does not depend on the order of message ids, and (if the hash has no collisions) batches of well-formed ids with equal batch id contain the same ids and worker set. (FALSE for arbitrary ids containing commas.)", "quantifier": "all lists of ids", "why_tests_cant": "all lists", "anchors": ["contracts/multisig-prover/src/types.rs: BatchId::new"]}
{"id": "C57", "title": "Batches contain exactly the requested gateway messages", "statement": "A constructed batch has one command per requested message, in the gateway order, built from that message fields, preceded by at most one operatorship transfer; messages for another destination chain never enter a batch.", "quantifier": "all requests and gateway contents", "why_tests_cant": "all requests", "anchors": ["contracts/multisig-prover/src/execute.rs: construct_proof", "contracts/multisig-prover/src/encoding/mod.rs: CommandBatchBuilder, make_command"]}
{"id": "C58", "title": "Signing sessions are bound to their batch", "statement": "The signature session a proof request starts is over the digest of precisely the batch that GetProof later returns for that session, under the worker set current at the request; a completed proof carries valid signatures of that digest by a quorum of that set. (FALSE when two requests in one block both rotate the worker set and list the same messages in different orders: the second overwrites the batch of the first.)", "quantifier": "all histories", "why_tests_cant": "all interleavings of proof requests", "anchors": ["contracts/multisig-prover/src/execute.rs: construct_proof", "contracts/multisig-prover/src/reply.rs", "contracts/multisig-prover/src/query.rs: get_proof"]}
{"id": "C59", "title": "The signed EVM payload determines the batch", "statement": "The ABI encoding that is hashed and signed determines the destination chain id, all command ids, types and parameters; equal encodings mean equal batches, and decoding recovers them.", "quantifier": "all batches", "why_tests_cant": "injectivity over all batches", "anchors": ["contracts/multisig-prover/src/encoding/abi.rs: encode, msg_digest"]}
{"id": "C60", "title": "The signed BCS payload determines the batch", "statement": "The BCS encoding that is hashed and signed determines the destination chain id, all command ids, types and parameters.", "quantifier": "all batches", "why_tests_cant": "injectivity over all batches", "anchors": ["contracts/multisig-prover/src/encoding/bcs.rs: encode, msg_digest"]}
{"id": "C61", "title": "Operators are listed in ascending address order with matching weights", "statement": "In operatorship transfers and in proofs, addresses are sorted ascending and position i of the weights belongs to position i of the addresses; nothing is lost or duplicated.", "quantifier": "all worker sets", "why_tests_cant": "all sets", "anchors": ["contracts/multisig-prover/src/encoding/abi.rs: make_operators, transfer_operatorship_params, encode_proof", "contracts/multisig-prover/src/encoding/bcs.rs"]}
{"id": "C62", "title": "New worker sets have a reachable majority threshold", "statement": "The threshold of a worker set built from a snapshot is more than half and at most all of the weight of its signers.", "quantifier": "all worker snapshots", "why_tests_cant": "all weights", "anchors": ["contracts/multisig-prover/src/execute.rs: get_workers_info, make_worker_set"]}
{"id": "C63", "title": "Batched calls: all mandatory, optional failures reported", "statement": "A batch forwards the mandatory messages first and in order, then the optional ones, tagged by position; the failure of an optional message is reported under its position and reverts only itself, the failure of a mandatory one reverts everything.", "quantifier": "all batches and outcomes", "why_tests_cant": "all outcome patterns", "anchors": ["contracts/batching/src/contract.rs"]}
{"id": "C64", "title": "The aggregate verifier relays without altering", "statement": "The aggregate verifier forwards the messages unchanged to the configured verifier and returns its answer unchanged.", "quantifier": "all messages and answers", "why_tests_cant": "all answers", "anchors": ["contracts/aggregate-verifier/src/contract.rs"]}
{"id": "C65", "title": "Queued transactions are broadcast exactly once, in order, within the gas limit", "statement": "For every interleaving of arriving messages, timer ticks and forced broadcasts, the concatenation of broadcast batches followed by the queue equals the messages received, in order; a batch of two or more messages stays below the batch gas limit; on shutdown the queue is flushed.", "quantifier": "all interleavings", "why_tests_cant": "all schedules", "anchors": ["ampd/src/queue/msg_queue.rs", "ampd/src/queue/queued_broadcaster.rs"]}
{"id": "C66", "title": "Blocks are published once each, in order", "statement": "If the node never reports a latest height lower than before, the published blocks are exactly the consecutive heights from the start height, each once, each framed by begin and end markers. (FALSE if the reported height regresses.)", "quantifier": "all sequences of reported heights and cancellation points", "why_tests_cant": "all schedules", "anchors": ["ampd/src/event_sub.rs"]}
{"id": "C67", "title": "Restarts neither skip nor repeat a block for a handler", "statement": "Across any number of runs and stops at any point, the sequence of blocks whose end a handler acknowledged is contiguous and no acknowledged block is handed to it again.", "quantifier": "all crash points", "why_tests_cant": "all crash points", "anchors": ["ampd/src/state.rs", "ampd/src/event_sub.rs: skip_to_block", "ampd/src/lib.rs: configure_handler", "ampd/src/event_processor.rs", "ampd/src/handlers/end_block.rs"]}
{"id": "C68", "title": "EVM votes are sound", "statement": "A SucceededOnChain vote for a message is produced only if a finalised receipt with that transaction hash holds, at that log index, an event of the given gateway equal to the message in every field; in all other cases the vote is NotFound.", "quantifier": "all receipts and messages", "why_tests_cant": "all receipts", "anchors": ["ampd/src/evm/verifier.rs", "ampd/src/handlers/evm_verify_msg.rs", "ampd/src/evm/finalizer.rs"]}
{"id": "C69", "title": "Sui votes are sound", "statement": "A SucceededOnChain vote is produced only if the finalised transaction block with that digest holds, at that event sequence number, an event of the gateway type equal to the message or worker set.", "quantifier": "all blocks and messages", "why_tests_cant": "all blocks", "anchors": ["ampd/src/sui/verifier.rs", "ampd/src/handlers/sui_verify_msg.rs"]}
{"id": "C70", "title": "Ballots match the poll", "statement": "For every poll-started event of its verifier and chain in which the worker participates and which is not expired, the handler broadcasts exactly one ballot for that poll, with one vote per message in order, provided the node it asks answers (otherwise it fails and broadcasts nothing); for every other event it can read it broadcasts nothing. The contract accepts such a ballot if it arrives before the poll expires and the worker has not voted. An event of the right type that cannot be read makes the handler fail, and the block is never passed, whatever contract emitted the event.", "quantifier": "all events, node answers and histories of the contract", "why_tests_cant": "all events; the daemon and the contract are tested apart", "anchors": ["ampd/src/handlers/evm_verify_msg.rs: handle", "ampd/src/handlers/evm_verify_worker_set.rs: handle", "ampd/src/handlers/sui_verify_msg.rs: handle", "ampd/src/handlers/sui_verify_worker_set.rs: handle", "ampd/src/event_processor.rs"]}
{"id": "C71", "title": "Account sequence numbers follow confirmed transactions", "statement": "The sequence number used equals the initial one plus the number of confirmed transactions; a transaction is confirmed iff one of the allowed number of lookups reports success before any reports failure.", "quantifier": "all response sequences", "why_tests_cant": "all response patterns", "anchors": ["ampd/src/broadcaster.rs: broadcast, confirm_tx"]}
{"id": "C72", "title": "End to end: delivery implies verification or nexus", "statement": "In the composed system of gateways, verifiers, router and nexus gateway, a message stored as outgoing for some chain either was injected by the nexus module or is reported verified by the verifier of its source chain gateway, with all fields unchanged.", "quantifier": "all histories of the composed system", "why_tests_cant": "composition over unbounded histories", "anchors": ["contracts/gateway", "contracts/connection-router", "contracts/voting-verifier", "contracts/nexus-gateway"]}
{"id": "C73", "title": "Verified means emitted on the source chain", "statement": "If every quorum of the workers asked contains one whose votes are those of the daemon and whose node tells the truth about final blocks, then a message that the voting verifier reports as verified was emitted by the configured gateway of the source chain: the transaction and event named in its id show a contract call with the same sender, destination and payload hash. The same holds of a verified worker set and a transfer of operatorship.", "quantifier": "all histories of the verifier, all behaviours of the other workers, EVM chains and Sui", "why_tests_cant": "composition of contract and daemon over unbounded histories", "anchors": ["contracts/voting-verifier/src/execute.rs", "ampd/src/handlers/evm_verify_msg.rs", "ampd/src/handlers/evm_verify_worker_set.rs", "ampd/src/handlers/sui_verify_msg.rs", "ampd/src/handlers/sui_verify_worker_set.rs", "ampd/src/evm/verifier.rs", "ampd/src/sui/verifier.rs"]}
{"id": "C74", "title": "One source chain event, one message", "statement": "Two different messages accepted as verified from one chain stem from two different events of that chain, so that one contract call on the source chain cannot be delivered twice under different ids. (FALSE: the ids \"0xab:1\" and \"0xab:01\" name the same event; holds among ids in canonical spelling.)", "quantifier": "all pairs of messages and all histories", "why_tests_cant": "ranges over all spellings of ids and all histories", "anchors": ["contracts/voting-verifier/src/events.rs: parse_message_id", "ampd/src/handlers/evm_verify_msg.rs", "ampd/src/evm/verifier.rs"]}
{"id": "C75", "title": "End to end: delivery implies emission on the source chain", "statement": "In the composed system of all contracts and the daemons: if, whenever a verifier opens a poll, every quorum of the workers active then contains one that runs the daemon with a truthful node, then every message that a gateway offers to the prover of its chain, and every message handed to nexus, was injected by nexus or was emitted, with the same source, destination and payload hash, by the configured gateway contract on the chain named in its id.", "quantifier": "all histories of transactions to all contracts, all behaviours of the other workers, EVM chains and Sui", "why_tests_cant": "composition of contracts and daemons over unbounded histories", "anchors": ["contracts/gateway", "contracts/connection-router", "contracts/voting-verifier", "contracts/nexus-gateway", "contracts/service-registry", "ampd/src/handlers"]}
{"id": "C76", "title": "End to end: only verified messages are signed", "statement": "In the composed system: every proof that GetProof of a prover returns as completed carries valid signatures, by members of the worker set current at the request with weight at least its threshold, over the digest of a batch whose approvals are for messages each of which was injected by nexus or verified at its source chain (and so emitted there, under the assumption of C75), and for no others.", "quantifier": "all histories of transactions to all contracts", "why_tests_cant": "composition of contracts over unbounded histories", "anchors": ["contracts/multisig-prover", "contracts/multisig", "contracts/gateway", "contracts/connection-router", "contracts/voting-verifier"]}
{"id": "C77", "title": "Daemons sign exactly the sessions they belong to", "statement": "For every event, the signing handler of a daemon submits at most one signature, and only for a session announced by the configured multisig contract that lists its worker: the key manager is asked for exactly the announced digest and listed key, and the answer is submitted for that session. The contract accepts it while the session is open. If the daemons of members whose weight reaches the threshold do so and their transactions are included, the session is completed. An announcement with a key that is not a curve point, or with a digest whose text reads as a number, stops every daemon.", "quantifier": "all events, key manager answers and histories of the contract", "why_tests_cant": "the daemon and the contract are tested apart, on single events", "anchors": ["ampd/src/handlers/multisig.rs: handle, deserialize_public_keys", "contracts/multisig/src/contract.rs", "packages/events/src/event.rs"]}
{"id": "C78", "title": "A quorum of votes verifies a message", "statement": "If a request opens a poll about a message, calls come in block order, and a quorum of the workers active at that moment vote before the poll expires that the event was seen, then the message is reported as verified from then on, whatever anyone else calls before, between or after the votes. In particular it is enough that a quorum run the daemon with nodes that show the contract call in a final block and their transactions are included in time.", "quantifier": "all histories of the verifier, all behaviours of everyone else, EVM chains and Sui", "why_tests_cant": "progress must hold for every interleaving of calls", "anchors": ["contracts/voting-verifier/src/execute.rs: verify_messages, vote", "packages/axelar-wasm-std/src/voting.rs", "ampd/src/handlers/evm_verify_msg.rs", "ampd/src/handlers/sui_verify_msg.rs"]}
{"id": "C79", "title": "A quorum of votes verifies a worker set", "statement": "If a request opens a poll about a worker set and a quorum of the workers active at that moment vote before it expires that the set was installed, then the worker set is reported as verified, whatever anyone else calls. (FALSE: anyone may open another poll about the set while the votes are on their way, and the contract only looks at the latest poll; holds if nobody does until the quorum is reached.)", "quantifier": "all histories of the verifier, all behaviours of everyone else", "why_tests_cant": "progress must hold for every interleaving of calls", "anchors": ["contracts/voting-verifier/src/execute.rs: verify_worker_set"]}
{"id": "C80", "title": "End to end: confirmed messages can be delivered", "statement": "In the composed system, anyone who asks the gateway of the source chain to route a batch with distinct ids has every verified message of the batch delivered in that transaction (the gateway of the destination chain answers with it, or it is handed to the nexus module), provided the source chain is not frozen and the destination chain accepts messages. Unverified messages in the batch do no harm. So a message that a quorum of workers confirmed in time can be delivered by anyone.", "quantifier": "all histories of transactions to all contracts, all batches", "why_tests_cant": "liveness of a composition of contracts over unbounded histories", "anchors": ["contracts/gateway/src/contract/execute.rs", "contracts/connection-router/src/contract/execute.rs", "contracts/nexus-gateway/src/contract/execute.rs", "contracts/voting-verifier/src/execute.rs"]}
{"id": "C81", "title": "Contracts can always pay", "statement": "On a chain where the coins attached to messages are moved before each call and the payments of responses after it, from any initial balances and with any other transfers: no transaction fails because a service registry or rewards contract lacks the coins it pays; the balance of a registry covers all recorded stake and that of a rewards contract all its pools; a worker whose unbonding period is over gets exactly its stake when it claims, and a distribution brings every worker exactly its due and changes no other balance. The only payment that can be refused is a claim of a stake of zero.", "quantifier": "all histories of transactions, transfers, minting and burning, all initial balances", "why_tests_cant": "solvency must hold for every interleaving of deposits, claims and distributions", "anchors": ["contracts/service-registry/src/contract.rs: bond_worker, claim_stake", "contracts/rewards/src/contract.rs: execute", "contracts/rewards/src/contract/execute.rs"]}
{"id": "C83", "title": "Rewards never block signing or voting", "statement": "The rewards contract accepts every participation record in every history (blocks in order, positive epoch durations, fewer than 2^64 messages), whatever anyone sent it before. So in the composed system a transaction that submits a signature is accepted exactly if the multisig contract accepts the signature, and a poll in progress can be ended by anyone as soon as it has expired; the participation is recorded in the same transaction, for exactly the signer, respectively the workers who voted with the consensus.", "quantifier": "all histories of transactions to all contracts", "why_tests_cant": "a failing record would revert the signature or the end of the poll; must hold for every parameter change, epoch and history", "anchors": ["contracts/rewards/src/contract/execute.rs: record_participation, current_epoch, update_params", "contracts/multisig/src/contract.rs: submit_signature", "contracts/voting-verifier/src/execute.rs: end_poll"]}
{"id": "C84", "title": "Rewards follow the work done", "statement": "In the composed system, after any history, what each worker is due from the pool of the multisig contract is determined by the signatures recorded there, and what it is due from the pool of a voting verifier by the ended polls in which it voted with the consensus: an event counts exactly if somebody took part in it, and in one epoch only; of the events of an epoch, exactly the workers who took part in at least the threshold share are due an equal part of the rewards of that epoch. No worker is recorded twice, left out, or recorded for work it did not do (so the forfeiture of C41 never happens to them), whatever anyone sends to any contract.", "quantifier": "all histories of transactions to all contracts", "why_tests_cant": "relates the state of two contracts after every history of both", "anchors": ["contracts/multisig/src/contract.rs: submit_signature", "contracts/voting-verifier/src/execute.rs: end_poll", "contracts/rewards/src/contract/execute.rs", "contracts/rewards/src/state.rs"]}
{"id": "C82", "title": "End to end: delivered messages can be proved", "statement": "In the composed system, anyone who asks the prover of a chain for a proof of messages that the gateway of that chain holds gets a signing session, announced for the members of the current worker set, over a batch that approves exactly these messages, with a transfer to the new worker set first if more members changed than the configured difference; for messages already batched nothing else is needed. The conditions: the active workers have keys, the destination addresses are addresses of the chain, no different rotation is in flight, and everything fits. If members whose weight reaches the threshold then submit valid signatures, the session is completed and the proof can be fetched, with a payload for the destination chain, whatever anyone else does.", "quantifier": "all histories of transactions to all contracts, all batches", "why_tests_cant": "liveness of a composition of contracts over unbounded histories", "anchors": ["contracts/multisig-prover/src/execute.rs: construct_proof", "contracts/multisig-prover/src/query.rs: get_proof", "contracts/multisig-prover/src/reply.rs", "contracts/multisig/src/contract.rs", "contracts/gateway/src/contract/query.rs"]}
{"id": "C85", "title": "Exactly which batches can be encoded", "statement": "A batch of messages, with or without a transfer to a new worker set, can be made and has a digest to sign if and only if every destination address is an address of the destination chain and every key of the new set can be named there (on EVM chains: is a point of the curve); then the payload for every choice of valid signatures of the current set can be encoded too, if its keys can be named. Nothing else makes the encoders abort (sizes up to 2 GB).", "quantifier": "all messages, worker sets and signatures, both encoders", "why_tests_cant": "a failing or aborting encoder blocks all messages of a request; must be excluded for every input", "anchors": ["contracts/multisig-prover/src/encoding/abi.rs", "contracts/multisig-prover/src/encoding/bcs.rs", "contracts/multisig-prover/src/encoding/mod.rs"]}
{"id": "C86", "title": "Worker sets rotate when, and only when, the destination chain has the new set", "statement": "Within the whole system, the worker set of a prover changes only (a) from none to the set of active workers with their registered keys, or (b) to the pending set, in a confirmation, when the voting verifier it is configured with reports the operators by which the destination chain knows that set as verified. If every quorum of each of that verifier's polls contains a worker who runs the daemon with a truthful node, the gateway on that chain did emit the handover to exactly these operators, weights and threshold. Conversely anyone can install the first set, have the handover to the active workers signed when enough of them changed, and confirm the pending set once it is verified.", "quantifier": "all histories of transactions of the composed contracts, all worker sets, both encoders, both kinds of source chains", "why_tests_cant": "connects prover, multisig, registry, verifier and daemons over arbitrary histories; a wrong operator encoding or a query to the wrong contract shows only in the composition", "anchors": ["contracts/multisig-prover/src/execute.rs: update_worker_set, confirm_worker_set, get_next_worker_set", "contracts/voting-verifier/src/execute.rs: verify_worker_set", "contracts/voting-verifier/src/query.rs: is_worker_set_verified", "contracts/multisig/src/contract.rs: register_worker_set", "ampd/src/evm/verifier.rs", "ampd/src/sui/verifier.rs"]}
{"id": "C87", "title": "The handlers a worker configures do not get in each other's way", "statement": "A configuration is accepted iff no two entries ask for the same handler. In every accepted configuration each handler has a label of its own and its progress is recorded, and the daemon answers an event with at most one transaction, that of the handler concerned. Whatever the configuration, every answer is sent in the name of the worker to the contract that announced the event, which is one the worker has configured. (The second sentence is false in two corners, which are delimited exactly: an EVM chain called `sui` next to the Sui handler of the same kind, and chains whose names differ only in capitals or contracts shared between Sui and EVM handlers.) A chain is asked for its finalized block iff it is called exactly `Ethereum`.", "quantifier": "all lists of handler configurations, all names of chains, all events of verifier and multisig contracts, all replies of nodes", "why_tests_cant": "collisions arise only for particular pairs of entries of an unbounded configuration; tests use a handful of fixed ones", "anchors": ["ampd/src/handlers/config.rs: deserialize_handler_configs", "ampd/src/lib.rs: configure_handlers", "ampd/src/state.rs: register_event", "ampd/src/evm/mod.rs: ChainName", "ampd/src/evm/finalizer.rs: latest_finalized_block_height"]}
{"id": "C88", "title": "What a contract stores in one place is never reached from another", "statement": "Each contract keeps its items and maps in one store of bytes. For every contract, every sequence of writes, removals and reads behaves as if each item and each map entry had a place of its own: a read returns what was last written to that very item or entry. Iterating over the signatures of a session, the workers of a service and chain, or the chains of a gateway meets exactly those entries. Building a key never fails unless a part other than the last is longer than 65535 bytes.", "quantifier": "all keys (strings of any length, all 64 bit numbers, both key types), all sequences of accesses, all contracts", "why_tests_cant": "collisions of concatenated keys need particular pairs of unbounded strings", "anchors": ["contracts/connection-router/src/state.rs: chain_endpoints, CrossChainId::key, ChainName::key", "contracts/gateway/src/state.rs", "contracts/nexus-gateway/src/state.rs", "contracts/multisig-prover/src/state.rs", "contracts/multisig/src/state.rs", "contracts/multisig/src/key.rs: KeyType::key", "contracts/rewards/src/state.rs", "contracts/service-registry/src/state.rs", "contracts/voting-verifier/src/state.rs", "packages/axelar-wasm-std/src/voting.rs: PollId::key"]}
{"id": "C89", "title": "End to end: workers who just run the daemon carry messages through", "statement": "In the composed system of all contracts and the daemons: anyone who asks a gateway to verify messages of its chain (with distinct, readable ids) opens a poll about those that are neither verified nor in a poll, among the active workers, announced with an event. If a quorum of these workers run the daemon, with nodes that show the contract call of a message in a final block, and what their daemons send gets onto the chain before the poll expires (alone in a transaction, or batched with others in one that succeeds), the message is then reported as verified, and anyone who asks the gateway to route it has it delivered, unless a chain is frozen. Likewise for proofs: if members of the worker set whose weight reaches the threshold run the daemon, with key managers that sign with the registered keys, and what their daemons send gets onto the chain, the proof can be fetched. All this whatever else anyone sends in between, including wrong votes and signatures of other workers.", "quantifier": "all histories of transactions to all contracts, all interleavings of the transactions of the daemons with those of others, all environments of the daemons", "why_tests_cant": "liveness of the composition of eight contracts and any number of daemons, over unbounded histories", "anchors": ["contracts/gateway/src/contract/execute.rs: verify_messages", "contracts/voting-verifier/src/execute.rs", "contracts/multisig/src/contract.rs", "contracts/multisig-prover/src/query.rs", "ampd/src/handlers/evm_verify_msg.rs", "ampd/src/handlers/sui_verify_msg.rs", "ampd/src/handlers/multisig.rs", "ampd/src/queue/queued_broadcaster.rs"]}
{"id": "C90", "title": "Joining with the commands of the daemon makes a worker take part", "statement": "A worker that bonds at least the minimum with the bond command, declares support for a chain with the declare command and registers its key with the register command, and is authorised by governance - in any order, with anything else happening in between - is listed among the active workers of the service for that chain with exactly that key, as long as it does not unbond, is not unauthorised and registers no other key. It is then a participant of every poll of that chain that is opened, and a member, with weight one and its key, of the first worker set that anyone installs. The commands are accepted: bond whenever the service exists and the coin has its denomination and is not zero, declare once the worker is known to the service, register always.", "quantifier": "all histories of transactions of the composed contracts, all orders of the steps, all key managers, saved keys and configurations", "why_tests_cant": "the steps go to different contracts and may be separated by arbitrary other transactions", "anchors": ["ampd/src/commands/bond_worker.rs", "ampd/src/commands/declare_chain_support.rs", "ampd/src/commands/register_public_key.rs", "ampd/src/commands/mod.rs: worker_pub_key", "contracts/service-registry/src/contract.rs", "contracts/multisig/src/contract.rs: register_pub_key", "contracts/voting-verifier/src/execute.rs: take_snapshot"]}
{"id": "C91", "title": "A worker that registered its key with the daemon's command signs when asked", "statement": "When a signing session of the configured multisig contract lists a worker with the key that it registered with the command of the daemon, and the key manager still holds the mnemonic, the daemon submits a signature valid under that key. (False of the code unless the configured key id is the text of the multisig address: the handler asks for signatures under that address as key id, but the command registers the key generated under the configured id. Then the daemon never signs, its signing handler is stopped by the first session that lists it, and if all members are like that no session is ever completed.)", "quantifier": "all key managers, mnemonics, key ids, sessions, histories of the multisig contract and of runs of the daemon", "why_tests_cant": "the key id used for registering and the one used for signing are in different parts of the program; its tests mock the key manager", "anchors": ["ampd/src/handlers/multisig.rs: handle", "ampd/src/commands/register_public_key.rs", "ampd/src/commands/mod.rs: worker_pub_key", "ampd/src/tofnd/mod.rs", "ampd/src/tofnd/grpc.rs", "ampd/proto/tofnd/multisig.proto", "ampd/src/lib.rs: prepare_app"]}
{"id": "C92", "title": "What the daemon answers to the events of a block gets into transactions", "statement": "Over any history of runs of the daemon, with failures and kills anywhere: what gets into a transaction is the answer of a configured handler to an event it was given, no more often than answered and in each handler's order; every event of every block that a handler completed was answered by it, and the answers are in transactions given to the node. (Across restarts false of the code when broadcasting fails in a process that then writes its state: the block is on record as completed, is never given to the handler again, and the answer is lost for good. It holds if the queue of every process that writes its state ends without an error, and within a process for everything that is followed by a successful broadcast.) Hence, end to end: if a quorum of the workers of a poll operate the daemon, the message is verified, and if members whose weight reaches the threshold do, the proof can be fetched.", "quantifier": "all chains of blocks, all histories of runs of the daemon with kills and failures at any point, all interleavings of handlers and queue, all replies of nodes; all histories of the composed contracts", "why_tests_cant": "the answer to an event passes through five concurrent tasks and a state file; loss shows only for particular schedules and failures across restarts", "anchors": ["ampd/src/lib.rs: App::run, configure_handler", "ampd/src/event_processor.rs: consume_events", "ampd/src/queue/queued_broadcaster.rs", "ampd/src/state.rs", "ampd/src/event_sub.rs", "ampd/src/handlers/evm_verify_msg.rs", "ampd/src/handlers/sui_verify_msg.rs", "ampd/src/handlers/multisig.rs"]}
{"id": "C93", "title": "The daemon ends as a whole and says why", "statement": "Whatever the order in which the tasks of the daemon end and are noticed: once the end of a task is noticed, or a signal arrives, all others are told to stop, and the daemon comes to its end without anything else having to happen; when it exits, all handlers and the broadcaster have ended, and the state it writes has all that the handlers reported; its result is that of the first task whose end was noticed, or success if a signal had arrived by then. A handler that finds itself told to stop at the end of a block is given nothing after that block. If a task fails, the daemon ends with a failure. (The last sentence is false of the code: a failing handler goes unnoticed as long as another one is running; if all handlers have ended, the daemon may exit with success although they failed; and failures after a signal, such as of the last broadcast, are dropped.)", "quantifier": "all numbers of handlers, all schedules of tasks that end in any way at any time, of signals, and of the task that waits for them", "why_tests_cant": "depends on the order in which concurrent tasks end and are noticed", "anchors": ["ampd/src/lib.rs: App::run", "ampd/src/event_processor.rs: EventProcessor::run, consume_events", "ampd/src/event_sub.rs: run", "ampd/src/queue/queued_broadcaster.rs: run", "ampd/src/block_height_monitor.rs: run", "ampd/src/state.rs: StateUpdater::run", "ampd/src/commands/daemon.rs", "ampd/src/main.rs"]}
{"id": "C94", "title": "What contracts write into events is what the daemon reads out of them", "statement": "The text of the event with which a verifier starts a poll, or the multisig contract a signing session, as the chain hands it out (attribute values as JSON or plain text, in base64), is decoded by the daemon, and the handlers read out of it exactly the announcing contract, the poll or session id, the participants, the expiry and the messages, worker set, keys and digest that the contract put into it, field by field and in order, whatever characters the strings in it contain; they can read nothing else out of it, and they read it whenever the transaction ids and addresses have the format of their chain. An attribute that is written as plain text (name of the source chain, gateway, digest) is read as itself, unless it is itself JSON: a text in quotes loses them, and other JSON - for a 32-byte digest exactly if its hexadecimal text is a number that fits into a float - cannot be read, which stops the handlers of all daemons at that block. All events that the contracts emit, in any history, are in the range in which this holds. Votes and signatures travel in the other direction unchanged, and only the kind of contract they are for reads them.", "quantifier": "all histories of the contracts, all polls, sessions, keys and digests, all strings of Unicode characters in them, all daemons and runs", "why_tests_cant": "the set of texts is infinite; escapes and the fallback from JSON to plain text depend on the contents", "anchors": ["contracts/voting-verifier/src/events.rs: From<PollStarted> for Vec<Attribute>, TxEventConfirmation", "contracts/multisig/src/events.rs: From<Event> for cosmwasm_std::Event", "packages/events/src/event.rs: TryFrom<abci::Event>", "packages/events-derive/src/lib.rs: try_from", "ampd/src/handlers/evm_verify_msg.rs: PollStartedEvent", "ampd/src/handlers/evm_verify_worker_set.rs", "ampd/src/handlers/sui_verify_msg.rs", "ampd/src/handlers/sui_verify_worker_set.rs", "ampd/src/handlers/multisig.rs: SigningStartedEvent", "contracts/voting-verifier/src/msg.rs: ExecuteMsg", "contracts/multisig/src/msg.rs: ExecuteMsg"]}
{"id": "C95", "title": "Messages between contracts survive being written as text", "statement": "The JSON text of a message that a contract sends or a user writes is read by the kind of contract it is for exactly as it was meant, and refused by every other kind. Whatever text arrives, what a contract reads is in the range of its types and one of its own messages (chain names lower-cased and without separator, texts that must not be empty not empty, numbers in range, thresholds above zero and at most one, epochs of at least one block, binary data of bytes and hashes of 32). Two different messages never have the same text, apart from the request to route messages, which routers and gateways write alike. In every history in which users send arbitrary texts and contracts send each other texts, and the id of a signing session travels back to the prover as text, the state of all contracts after each transaction, and which messages were delivered, are those of the history in which the messages that the texts mean are handed over directly; no message that a contract sends is ever misread or refused for its text.", "quantifier": "all texts of Unicode characters, all messages, all sets of contracts, all histories", "why_tests_cant": "the sets of texts and of messages are infinite, and the claim about histories ranges over all of them", "anchors": ["contracts/aggregate-verifier/src/msg.rs: ExecuteMsg", "contracts/voting-verifier/src/msg.rs: ExecuteMsg", "contracts/gateway/src/msg.rs: ExecuteMsg", "packages/connection-router-api/src/msg.rs: ExecuteMsg", "contracts/nexus-gateway/src/msg.rs: ExecuteMsg", "contracts/service-registry/src/msg.rs: ExecuteMsg", "contracts/rewards/src/msg.rs: ExecuteMsg", "contracts/multisig/src/msg.rs: ExecuteMsg", "contracts/multisig-prover/src/msg.rs: ExecuteMsg", "contracts/multisig/src/contract.rs: start_signing_session", "contracts/multisig-prover/src/reply.rs", "packages/axelar-wasm-std/src/nonempty/uint.rs", "packages/connection-router-api/src/primitives.rs"]}
{"id": "C96", "title": "Questions between contracts survive being written as text", "statement": "While it is called, a contract asks others: a gateway asks its verifier whether messages are verified, a verifier asks the service registry for the active workers, a prover asks the gateway for messages, the registry for workers, the multisig contract for keys and for the state of a session, and the verifier whether a worker set is confirmed. Question and answer are JSON texts. In every history of transactions with arbitrary texts, the contract that asks learns exactly what the query of the contract asked says about its storage at that moment, value by value and in order (every number, key, signature and amount stored is in the range its text can carry); it gets no answer from a contract of another kind and none where the query fails; two different questions never have the same text. Hence every call goes exactly as if the values were handed over directly, and the proof that the prover hands out is the one made of the signatures that the multisig contract stores.", "quantifier": "all sets of contracts, all histories of transactions with arbitrary texts, all questions and storages", "why_tests_cant": "the sets of questions and storages are infinite, and that stored values stay in range is an invariant of all histories", "anchors": ["contracts/gateway/src/contract/query.rs: VerifierApi", "contracts/voting-verifier/src/contract.rs: query", "contracts/voting-verifier/src/execute.rs: take_snapshot", "contracts/gateway/src/contract.rs: query", "contracts/service-registry/src/contract.rs: query", "contracts/service-registry/src/state.rs: Worker, BondingState", "contracts/multisig/src/contract.rs: query", "contracts/multisig/src/msg.rs: QueryMsg, Multisig", "contracts/multisig/src/key.rs: PublicKey, Signature", "contracts/multisig-prover/src/execute.rs: get_messages, get_workers_info, confirm_worker_set", "contracts/multisig-prover/src/query.rs: get_proof"]}
{"id": "C97", "title": "Ids stand for what they were made of", "statement": "A worker set id is the Keccak-256 hash of the JSON text of the set, the key under which a verifier keeps an operator set is the hash of the JSON text of its weights and of its threshold, and the key of a message is the hash of its texts and payload hash. Worker sets with the same id agree in every member, weight, key, threshold and block height, and operator sets with the same key agree in every address, weight, their order and the threshold, unless two different byte strings with the same Keccak-256 hash are known; messages with the same key have the same payload hash and agree in the text of all fields together (but not field by field, see C14). Hence in every history of transactions with arbitrary texts no two different worker sets registered at a multisig contract share an id, unless the hash collides on the texts of these two; and a completed proof handed out in such a history was signed by a quorum of the right worker set over verified messages, unless such a collision was registered.", "quantifier": "all worker sets, operator sets and messages of their types, all hash functions, all histories of transactions with arbitrary texts", "why_tests_cant": "injectivity of a serialisation over infinitely many values; collisions cannot be searched for", "anchors": ["contracts/multisig/src/worker_set.rs: WorkerSet::hash, WorkerSet::id", "packages/axelar-wasm-std/src/operators.rs: Operators::hash", "contracts/connection-router/src/state.rs: Message::hash", "contracts/multisig/src/contract.rs: ExecuteMsg::RegisterWorkerSet"]}
{"id": "C98", "title": "What contracts store fits its type and is loaded as it was stored", "statement": "Contracts keep their data as JSON texts and read these texts again whenever they are called. In every history of transactions with arbitrary texts, everything that a contract has stored while running is a value of its Rust type: every number is in the range of its type, so that no counter, height, weight, tally, balance, epoch or id was ever cut off, binary data are bytes, chain names valid, keys of the right length, and no map has a key twice. And the text kept for it, loaded as the type of that place, gives back exactly this value; the tally of rewards, which is kept as a hash map and written in no fixed order, is loaded as the same whatever the order.", "quantifier": "all sets of contracts, all histories of transactions with arbitrary texts, all places of the storage", "why_tests_cant": "an invariant of all histories of all contracts together; ranges are only left after more steps than a test can make", "anchors": ["packages/axelar-wasm-std/src/voting.rs: WeightedPoll, Tallies, Participation", "contracts/voting-verifier/src/state.rs: POLL_ID, POLLS, POLL_MESSAGES, POLL_WORKER_SETS", "contracts/gateway/src/state.rs", "contracts/connection-router/src/state.rs: ChainEndpoint, chain_endpoints", "packages/axelar-wasm-std/src/flagset.rs", "contracts/nexus-gateway/src/state.rs", "contracts/service-registry/src/state.rs: SERVICES, WORKERS, WORKERS_PER_CHAIN", "contracts/rewards/src/state.rs: PARAMS, TALLIES, EVENTS, POOLS, WATERMARKS", "contracts/multisig/src/state.rs", "contracts/multisig/src/signing.rs: SigningSession", "contracts/multisig-prover/src/state.rs", "contracts/multisig-prover/src/types.rs: CommandBatch, Command, BatchId", "contracts/multisig-prover/src/encoding/mod.rs: Data"]}
{"id": "C99", "title": "The chain executes what the daemon meant to sign, and a signature is good for nothing else", "statement": "From the bytes that the daemon submits, a node of the chain reads exactly the messages that were broadcast, in their order, with the sequence number, gas limit and fee of the daemon and the key of its account, no memo, no timeout, no other payer; the one signature is the one given for the bytes that the node checks it against. Contracts receive sender, funds and message text as handlers and commands meant them. No other bytes that are checked against the same sign bytes are read as anything else, on any chain and for any account; and once a transaction is confirmed, nothing signed later in any history has the sign bytes of anything signed before. What is simulated for the gas has the same messages and sequence number.", "quantifier": "all messages, accounts, fees, sequence numbers, all byte strings others may submit, all histories of broadcasts with all replies", "why_tests_cant": "injectivity of an encoding and freshness over all histories are statements about all inputs", "anchors": ["ampd/src/broadcaster/tx.rs: Tx, sign_with, with_dummy_sig, zero_fee", "ampd/src/broadcaster.rs: broadcast, estimate_fee", "ampd/src/queue/queued_broadcaster.rs: broadcast", "ampd/src/handlers/multisig.rs: broadcast_signature", "ampd/src/commands/bond_worker.rs: run"]}
{"id": "C100", "title": "The daemon starts with the account number and sequence that the chain has", "statement": "If the daemon takes the answer of the node about its account, then it has the account number and the sequence number that the chain has for the account, whatever kind of account it is; the first transaction carries this sequence number, and its signature is for this account number.", "quantifier": "all accounts of all kinds, all keys, all replies", "why_tests_cant": "bytes of one kind of message can be read as another; only particular values show it", "anchors": ["ampd/src/broadcaster/accounts.rs: account", "ampd/src/lib.rs: prepare_app", "ampd/src/commands/mod.rs: broadcast_tx, account_info"]}
{"id": "C101", "title": "The gas price is the one that its text says", "statement": "A text is accepted as a price exactly if it is a finite number without letters followed by a denomination that begins with a letter, and then these are amount and denomination; a price read from a configuration is read again from the configuration that is written; every price that can be made is read as it was written, also with amount and denomination apart.", "quantifier": "all texts, all amounts, all denominations", "why_tests_cant": "the split between number and denomination depends on where letters are, for all texts", "anchors": ["ampd/src/broadcaster/dec_coin.rs: DecCoin, FiniteAmount, Denom"]}
{"id": "C102", "title": "Every transaction of the daemon has the sequence number that the chain expects", "statement": "At any time, after any history of broadcasts that succeeded, failed or were lost, the transaction that the running daemon submits has the sequence number that the chain expects of its account.", "quantifier": "all histories of broadcasts, inclusions in blocks, replies of nodes and other uses of the account", "why_tests_cant": "depends on the history of the daemon and of the chain together", "anchors": ["ampd/src/broadcaster.rs: broadcast", "ampd/src/queue/queued_broadcaster.rs: run", "ampd/src/lib.rs: prepare_app", "ampd/src/commands/mod.rs: broadcast_tx"]}
{"id": "C103", "title": "What is shown of an error is complete, in order and names the right cause", "statement": "When a contract rejects a call, the text it answers with, and what the daemon logs of a failure, names every error of the report from the last to the first, each with all its notes in the order in which they were made and the place where it arose; making it never panics; and the cause shown for an error is its cause. (The last part is FALSE of reports joined from two failures: the second is shown as the cause of the first.)", "quantifier": "all reports made by raising, annotating, re-raising and joining errors in any order and number", "why_tests_cant": "reports are trees of any size; tests show one chain of three errors", "anchors": ["packages/report/src/loggable.rs: LoggableError, chain_causes", "packages/axelar-wasm-std/src/error.rs", "ampd/src/commands/daemon.rs: run", "ampd/src/broadcaster.rs: confirm_tx"]}
{"id": "C104", "title": "An instantiated contract has, forever, the configuration its message says, and a sensible one", "statement": "Whatever text is sent to instantiate a contract of any kind: if it is accepted, voting and signing thresholds are more than half and at most everything, the names of chains are valid, required texts are not empty, every number is in the range of its type and reward epochs have a length; a message that was written for such a configuration is read as it was meant. After every history of transactions with arbitrary texts, the contract is still there, of that kind, and the configuration it loads is the one the message said. What other properties assume of configurations is therefore met by contracts that were instantiated: their histories, as text, are histories of the model, what they store is in range, and whoever ends an expired poll in progress succeeds.", "quantifier": "all kinds of contracts, all texts of instantiation, all histories of transactions with arbitrary texts", "why_tests_cant": "all texts, and an invariant over all histories", "anchors": ["contracts/*/src/msg.rs: InstantiateMsg", "contracts/*/src/contract.rs: instantiate", "contracts/*/src/state.rs: Config, CONFIG", "packages/axelar-wasm-std/src/threshold.rs: MajorityThreshold"]}
{"id": "C105", "title": "Contracts may be instantiated at any time, in any order: it makes no difference", "statement": "A chain starts without contracts. Contracts are instantiated along the way, before or after the contracts that they name in their configurations, and users send transactions in between, some to contracts that do not exist yet. Every such history leaves exactly the storages, delivered messages and responses of the history of its successful transactions on a chain on which all of its contracts were there from the start: a call that succeeds without some contracts would have succeeded, with the same result, with them. An instantiation fails only if its text is refused or the address is taken. So what is proved of contracts that are there from the start holds of every history of texts from a chain without contracts; for instance, what a gateway answers with was injected by the nexus module or is reported as verified by the verifier of the gateway that routed it.", "quantifier": "all sequences of instantiations and transactions, with arbitrary texts, from the empty chain", "why_tests_cant": "all interleavings of deployments and traffic; tests set up the contracts first and always in one order", "anchors": ["contracts/*/src/contract.rs: instantiate, execute", "contracts/multisig-prover/src/execute.rs", "contracts/voting-verifier/src/execute.rs", "contracts/gateway/src/contract.rs"]}
{"id": "C106", "title": "What a client built on the API packages writes, the contracts read as it was meant", "statement": "Clients may use the types of the packages connection-router-api and gateway-api for their messages to the router and to gateways. Such a client can name a chain exactly if the name is perhaps one capital letter, then small letters, then perhaps a number, perhaps after a dash; contracts read every such name as the same name in small letters, two such names are the same to the client exactly if they are the same chain to the contracts, and they then differ at most in the first letter. Clients read what clients write. The contract reads what a client writes as what was asked for. The last part fails for messages that carry cross-chain messages: no contract reads any of them.", "quantifier": "all messages of the two packages, all names of chains, all contracts, all texts of addresses", "why_tests_cant": "the tests of the packages try names only; nothing tests the packages against the contracts", "anchors": ["packages/connection-router-api/src/primitives.rs: ChainName, Address, Message, GatewayDirection", "packages/connection-router-api/src/error.rs: CHAIN_NAME_REGEX", "packages/connection-router-api/src/msg.rs: ExecuteMsg", "packages/gateway-api/src/msg.rs: ExecuteMsg", "contracts/connection-router/src/state.rs: ChainName, Message", "contracts/connection-router/src/msg.rs: ExecuteMsg", "contracts/gateway/src/msg.rs: ExecuteMsg"]}
{"id": "C107", "title": "Who reads the events of the contracts can tell what they would answer", "statement": "Somebody reads the events of all contracts, as the node hands them out, from the first block on, and asks nothing. They can tell: the gateway of every chain that the router would name; what every gateway answers to GetMessages, and when it fails; which key a multisig contract has for every worker and type of key; who may start a signing session; and for every session its state and who signed with which signature, so that GetMultisig follows with the worker set named in the event (unless two different worker sets were registered whose texts have the same hash). They can also tell what a verifier answers to IsVerified about a message, and to IsWorkerSetVerified about a worker set, if no poll was about it or the last poll about it was ended: not verified in the first case, the result of that poll in the second (unless another message or worker set that the verifier was asked about has the same hash, and for messages whose ids are spelled canonically). The full statement, that the events determine all answers, fails: from the events nobody can tell whether a chain is frozen, nor, before a poll is ended, whether a message is verified, nor how the id of a message in a poll was spelled.", "quantifier": "all histories of all contracts, all transactions as text, all texts of addresses, all ids, keys and sessions", "why_tests_cant": "tests compare single events with what was just executed; that a reader of all of them ends up with what the contracts store is a statement about every history", "anchors": ["contracts/connection-router/src/events.rs: ChainRegistered, GatewayUpgraded, ChainFrozen, MessageRouted", "contracts/connection-router/src/contract.rs: execute::register_chain, execute::upgrade_gateway, execute::freeze_chain, execute::unfreeze_chain, execute::route_message", "contracts/connection-router/src/events.rs: From<Message> for Vec<Attribute>", "contracts/gateway/src/events.rs: GatewayEvent", "contracts/gateway/src/contract/execute.rs", "contracts/gateway/src/contract/query.rs: get_messages", "contracts/multisig/src/events.rs: Event", "contracts/multisig/src/contract.rs: execute, query::get_multisig, query::get_public_key", "contracts/voting-verifier/src/events.rs: PollStarted, Voted, PollEnded", "contracts/voting-verifier/src/query.rs: is_verified, is_worker_set_verified"]}
{"id": "C108", "title": "The daemon runs with what its operator configured, or fails", "statement": "The settings of the daemon come from the files given on the command line, in that order, and then from the environment; for every setting, the last of them that says something about it has the last word, tables are merged name by name and lists are replaced as a whole; files that do not exist are skipped, and a setting or section that nobody mentions has its default. If a file cannot be parsed, a value in effect cannot be read, two entries ask for the same handler or a section is incomplete, the process says so and fails. A state file that cannot be read or parsed, or a start that fails, leaves the state file as it is; the key recorded in it is kept for good. (Two parts are FALSE of the code: with a configuration that is refused the daemon goes on with the default one, that is without handlers, ends at once and exits with success, and commands act for another key; and a state file that exists but cannot be read is overwritten with an empty state, even by a start that fails.)", "quantifier": "all files, environments and paths, all nested tables; all state files; all schedules of the tasks of the daemon", "why_tests_cant": "which of any number of sources decides, for nested tables, and how the process then ends, over all schedules; tests parse one well-formed file", "anchors": ["ampd/src/main.rs: main, init_config, find_config_files, parse_config, expand_home_dir", "ampd/src/config.rs: Config", "ampd/src/broadcaster.rs: Config", "ampd/src/tofnd/mod.rs: Config", "ampd/src/handlers/config.rs: deserialize_handler_configs", "ampd/src/state.rs: load, flush", "ampd/src/lib.rs: run, prepare_app", "ampd/src/commands/daemon.rs: run"]}
{"id": "C109", "title": "End to end: a completed proof carries what was signed", "statement": "Whenever a prover hands out a completed proof, its payload is the very content whose digest a quorum of the worker set, which was the prover's when signatures were asked for, signed; the ids shown are those of the messages in it, in that order, each of which was injected by nexus or verified at its source; and it contains nothing else but possibly the transfer to a new worker set. (FALSE of the code: anyone can ask, in the same block, for a second proof of the same messages in another order while the worker set is about to change; the second batch replaces the first, and the first proof then shows, as completed, content that nobody signed.)", "quantifier": "all histories of transactions over all sets of contracts, all hash and signature functions, all requests and signatures", "why_tests_cant": "which batch a session shows after any history of later requests, with a changing set of workers; integration tests ask for one proof", "anchors": ["contracts/multisig-prover/src/execute.rs: construct_proof, get_next_worker_set, update_worker_set", "contracts/multisig-prover/src/query.rs: get_proof", "contracts/multisig-prover/src/types.rs: BatchId", "contracts/multisig-prover/src/reply.rs: start_multisig_reply", "contracts/multisig/src/contract.rs: start_signing_session, submit_signature"]}
{"id": "C110", "title": "The logs of an EVM gateway are understood as the contract meant them", "statement": "A worker votes for a message of an EVM chain only if a receipt of that chain has, at the index of the message and written by the configured gateway, a log whose bytes say, as Solidity would read them: this sender called this contract on this chain with a payload of this hash; and whenever the gateway emits such a call with any payload, in a final block, the worker votes for it. Likewise for transfers of operatorship. Logs of other events, with other numbers of topics, or with offsets or lengths out of bounds, are never taken for either. What gateways offer and what quorums sign is in such a log (or comes from nexus). (Byte for byte this is FALSE of the code: names in logs are strings of any bytes, and those that are not UTF-8 are read with a replacement character; two different calls are then voted for as the same message.)", "quantifier": "all logs: all lists of topics and all bytes of data; all payloads, names and senders; all nodes and polls; all histories of the network", "why_tests_cant": "the decoding of any bytes, malformed ones included; tests decode logs that the same library has encoded", "anchors": ["ampd/src/evm/verifier.rs: verify_message, verify_worker_set, get_event", "ampd/src/evm/abi/IAxelarGateway.json: ContractCall, OperatorshipTransferred", "ampd/src/handlers/evm_verify_msg.rs: handle", "ampd/src/handlers/evm_verify_worker_set.rs: handle"]}
{"id": "C111", "title": "Users get true answers, and a relayer reads in a proof what was signed", "statement": "Users ask contracts by JSON texts: the router about a chain, a prover for a proof or for its worker set, the multisig contract for worker sets, sessions and keys, the registry for services and workers, verifiers and gateways for messages. After every history of texts from a chain without contracts, every question is answered exactly if the contract is of the kind that is asked and has something to say, and the text of the answer is read as what the contract stores; no two questions have one text. In particular, the text in which a relayer reads a completed proof carries the execute data of content that a quorum of the worker set signed, and approves only messages injected by nexus or found in logs of the chain that their id names, if the contracts involved are those of this repository and enough workers run the daemon with truthful nodes. (FALSE of GetWorker, which takes its two arguments for each other; and of proofs in the corner of C109.)", "quantifier": "all histories of texts from a chain without contracts, all questions, all contracts; all hash and signature functions, all source chains", "why_tests_cant": "an answer depends on the whole history; tests call query functions on prepared storage and do not go through texts", "anchors": ["contracts/connection-router/src/contract.rs: query, query::get_chain_info", "contracts/multisig-prover/src/contract.rs: query", "contracts/multisig-prover/src/query.rs: get_proof, get_worker_set", "contracts/multisig-prover/src/msg.rs: QueryMsg, GetProofResponse, ProofStatus", "contracts/multisig/src/contract.rs: query", "contracts/service-registry/src/contract.rs: query", "contracts/voting-verifier/src/contract.rs: query", "contracts/gateway/src/contract/query.rs"]}
{"id": "C112", "title": "The events of a Sui gateway are understood as the package meant them", "statement": "A worker votes for a message of a Sui chain only if its node returned the block of the transaction, in a checkpoint, with an event of the configured gateway package, at the number of the message, whose JSON contents say: this object called this address on this chain with a payload of this hash. Contents say so if they are an object with these four fields, in any order, among any others, with addresses and hashes as 64 hexadecimal digits of either case, with or without 0x, or the array of the four; whatever a node shows for a call is understood as this call, and votes are NotFound in all other cases. Likewise for transfers of operatorship and the bytes of their operators. What gateways offer and what quorums sign, if it comes from a Sui chain, is in such an event.", "quantifier": "all JSON values; all callers, names, addresses and payloads; all nodes, blocks and polls; all histories of the network", "why_tests_cant": "the reading of any JSON value, odd ones included; tests read contents that they have just written", "anchors": ["ampd/src/sui/verifier.rs: ContractCall, OperatorshipTransferred, PartialEq<&Message> for &SuiEvent, PartialEq<&WorkerSetConfirmation> for &SuiEvent, verify_message, verify_worker_set", "ampd/src/handlers/sui_verify_msg.rs: handle", "ampd/src/handlers/sui_verify_worker_set.rs: handle"]}
{"id": "C113", "title": "End to end in texts and bytes: from the source chain to the text of a proof", "statement": "Take any history of texts sent to a chain that starts without contracts, and judge workers only by the texts that they send: a worker is honest if every text of theirs that a verifier reads as a vote is what their daemon writes when it reads, in the attributes of an event that the chain handed out, that a poll was opened, and if their nodes tell the truth about final blocks. If every quorum of the workers that the registry named for a poll contains an honest one, then each message that a gateway of the router offers was injected by nexus, or is, at the configured source gateway, in the transaction and at the index that its id names, in the bytes of an EVM log or in the JSON of a Sui event; and the text in which a relayer reads a completed proof carries content that a quorum of the worker set signed and approves only such messages. (The last part is FALSE of the code without a condition: see C109.)", "quantifier": "all histories of texts from a chain without contracts; all source chains, nodes, logs and events; all hash and signature functions; all sets of workers, honest or not", "why_tests_cant": "joins the whole path, from bytes at the source, through texts in both directions, to the text of the proof; tests cover single contracts and handlers, and integration tests mock the daemon", "anchors": ["ampd/src/handlers/evm_verify_msg.rs: handle", "ampd/src/handlers/sui_verify_msg.rs: handle", "ampd/src/event_processor.rs", "ampd/src/evm/verifier.rs: verify_message", "ampd/src/sui/verifier.rs: verify_message", "contracts/voting-verifier/src/execute.rs: verify_messages, vote", "contracts/gateway/src/contract/execute.rs", "contracts/connection-router/src/contract.rs: execute::route_message", "contracts/multisig-prover/src/query.rs: get_proof"]}
{"id": "C114", "title": "Carrying a message through, in texts and bytes", "statement": "Take a chain of contracts that were deployed and called with texts, in the order of blocks. (0) Whoever sends the gateway of the source chain a text that asks to verify messages with distinct and readable ids of this chain opens a poll about every one of them that is neither verified nor in a poll, among the active workers of that moment and until the configured number of blocks later, and the verifier writes the raw event of the poll. Take such a poll. (1) Before the poll expires, the text of a ballot for all messages of the poll, sent by one of its workers in a transaction of its own, is taken, unless the verifier already took a ballot of this worker. (2) If workers that reach the threshold read the raw event of the poll with their daemons, if the nodes that these daemons ask show the contract call (the bytes that the EVM writes for it, in a final block; or the JSON of the Sui event), if the texts that the daemons hand to their queues are taken before the poll expires, and if these workers send no other text that is a vote in this poll, then the verifier answers that the message is verified. (3) Then the text of a request to the gateway of the source chain to route the message, from anybody, succeeds, unless a chain is frozen, and afterwards the gateway of the destination chain answers the text of a question for this message with a text that reads as exactly this message; if the destination chain is not registered, the message has been handed to the nexus module. (4) Whoever sends the prover of the destination chain a text that asks for a proof of messages that the gateway holds gets a signing session, if a batch can be made of them: the multisig contract writes the raw event of the session, for the digest of a batch that approves exactly these messages (with a transfer to the new worker set first if enough workers changed), and the prover answers the text of a question for the proof with a text that shows this batch, not signed yet. Whoever sends the same request again, once there is such a batch without a transfer, gets another session for this batch, whatever the workers and their keys are by then. (5) The text of a valid signature for this session from a member of the worker set is taken, unless there already is one of this member, or the session was completed and the time for late signatures is over. (6) If members that reach the threshold read the raw event with their daemons, and the texts that these hand to their queues are taken, then the prover answers with the text of a completed proof of these messages.", "quantifier": "for every sequence of deployments and transactions given as texts, every poll, message, session, set of voters or signers that reaches the threshold, node, key manager, event loop input, and every sender of a ballot, of a signature and of a request", "why_tests_cant": "liveness across two programs that exchange texts through a blockchain: contracts, raw events, daemons on many machines, logs of another chain, and requests by anybody; no test runs all of these together, let alone for every history", "anchors": ["contracts/voting-verifier/src/execute.rs: vote, verify_messages", "contracts/gateway/src/contract/execute.rs: verify_messages, route_messages", "contracts/gateway/src/contract/query.rs", "contracts/connection-router/src/contract.rs: execute::route_message", "ampd/src/handlers/evm_verify_msg.rs: handle", "ampd/src/handlers/sui_verify_msg.rs: handle", "ampd/src/event_processor.rs", "packages/axelar-wasm-std/src/voting.rs: WeightedPoll::cast_vote", "contracts/multisig-prover/src/execute.rs: construct_proof", "contracts/multisig-prover/src/query.rs: get_proof", "contracts/multisig/src/contract.rs: start_signing_session, submit_signature", "ampd/src/handlers/multisig.rs: handle"]}
{"id": "C115", "title": "Rotating the worker set, in texts and bytes", "statement": "Take a chain of contracts that were deployed and called with texts, in the order of blocks. (0) Whoever sends a prover without worker set the text of a request to update it installs a set of the active workers with their registered keys, and afterwards the prover and the multisig contract answer the texts of questions for it with texts that read as this set. (1) If the prover has a worker set, and more active workers changed than the configured difference, the same text opens a signing session: the multisig contract writes the raw event of the session, for the digest of a batch that hands over to the new set, the prover answers the text of a question for the proof with a text that shows this batch, and the new set is pending. (2) Whoever sends the verifier the text of a request to verify a worker set that is not verified, with a readable id, opens a poll about it among the active workers of that moment, and the verifier writes the raw event of the poll. (3) A worker of the poll that reads this raw event with its daemon, and whose node shows the handover (the bytes that an EVM gateway writes for it, in a final block; or the JSON of the Sui event), votes for it and sends nothing else. (4) The text of a vote of a worker of the poll before it expires is taken, unless this worker sent one before. (5) When the texts of votes for the set of workers that reach the threshold have been taken, the verifier answers that the set is verified. (6) Then the text of a request to confirm the set, from anybody, installs it, as in (0), and no set is pending. (7) Conversely, if the worker set that the prover holds is replaced by another, and every group of workers that reaches the threshold of a poll contains one that votes only as its daemon says, with a node that shows only what happened, then the other chain shows a handover, at the configured gateway, to exactly the operators of the new set.", "quantifier": "for every sequence of deployments and transactions given as texts, every prover, verifier, worker set, poll, set of voters that reaches the threshold, node, and every sender of a request or vote; (5) fails for some histories, because anybody may ask about a verified or pending set again", "why_tests_cant": "liveness and safety across contracts, raw events, daemons and bytes of another chain, for every history of texts", "anchors": ["contracts/multisig-prover/src/execute.rs: update_worker_set, confirm_worker_set", "contracts/multisig-prover/src/query.rs: get_worker_set, get_proof", "contracts/voting-verifier/src/execute.rs: verify_worker_set, vote", "contracts/voting-verifier/src/query.rs: is_worker_set_verified", "contracts/multisig/src/contract.rs: register_worker_set, start_signing_session", "ampd/src/handlers/evm_verify_worker_set.rs: handle", "ampd/src/handlers/sui_verify_worker_set.rs: handle", "ampd/src/evm/verifier.rs: verify_worker_set", "ampd/src/sui/verifier.rs: verify_worker_set"]}
{"id": "C116", "title": "Joining with the commands of the daemon, in texts", "statement": "Take a chain of contracts that were deployed and called with texts. (1) The text that the bond command of the daemon sends is taken by the registry whenever governance registered the service, the coin has its denomination and is not zero, and the sum with what the worker already has at stake fits; the text of the declare command is taken once the registry knows the worker; the text of the register command is always taken by the multisig contract. Each is executed as exactly the message that the command meant. (2) Once the three were taken, with at least the minimum bond, and governance authorised the worker - in any order, with anything else in between - and as long as the worker does not unbond, is not unauthorised and registers no other key, the registry answers the text of a question for the active workers of the service and chain with a text that reads as a list with this worker, and the multisig contract answers the text of a question for its key with a text that reads as exactly the key of its daemon. (3) It is then named in the event of every poll that is opened for its chain, and (4) is a member, with weight one and its key, of the first set that anybody installs with the text of a request to update the worker set, as the prover answers.", "quantifier": "for every sequence of deployments and transactions given as texts, every order of the steps, every key manager, saved key and configuration of the daemon", "why_tests_cant": "ranges over every history of texts around the commands, and over two programs that only share the JSON between them", "anchors": ["ampd/src/commands/bond_worker.rs: run", "ampd/src/commands/declare_chain_support.rs: run", "ampd/src/commands/register_public_key.rs: run", "ampd/src/commands/mod.rs: worker_pub_key", "contracts/service-registry/src/contract.rs: execute, query", "contracts/multisig/src/contract.rs: register_pub_key, get_public_key", "contracts/voting-verifier/src/execute.rs: take_snapshot", "contracts/multisig-prover/src/execute.rs: update_worker_set"]}
{"id": "C117", "title": "Rewards follow the work and are paid, in texts", "statement": "Take a chain of contracts that were deployed and called with texts. (1) What each worker is due from the pool of a multisig contract is determined by the signatures recorded there, and what it is due from the pool of a voting verifier by the ended polls in which it voted with the consensus, as in C84, whatever texts anybody sent. (2) The text of a request to distribute the rewards of a pool is taken if and only if there is an epoch to pay, at least two before the current one, and the pool can pay for all the epochs asked for; then each worker is paid, in one transfer in the denomination of the contract, the sum of what it is due for exactly these epochs, the pool becomes smaller by just what was paid, no other pool and no other contract changes, and the epochs count as paid.", "quantifier": "for every sequence of deployments and transactions given as texts, every pool, number of epochs asked for and height", "why_tests_cant": "relates what three contracts keep after every history of texts, and says exactly when a request is taken", "anchors": ["contracts/rewards/src/contract.rs: execute", "contracts/rewards/src/contract/execute.rs: distribute_rewards", "contracts/rewards/src/msg.rs: ExecuteMsg", "contracts/multisig/src/contract.rs: submit_signature", "contracts/voting-verifier/src/execute.rs: end_poll"]}
{"id": "C118", "title": "Stake and membership follow the texts sent to the registry", "statement": "Take a chain of contracts that were deployed and called with texts. (1) The text of a request to unbond is taken if and only if the last call by which the sender managed its stake in the service (bond, unbond or claim) was to bond. (2) The text of a request to claim is taken if and only if that last call was to unbond, at least the unbonding period of the service before; then the sender is sent, in one transfer in the denomination of the service, everything that it deposited with its bonds and was not paid before, and nobody else is sent anything. (3) For every registered service, the text of a question for the active workers of a chain is answered with a text that reads as a list in ascending order of addresses; on it are exactly the workers who declared support for the chain, whose last call about their stake was to bond, who have at least the minimum bond at stake, and about whom the last word of governance was that they are authorised.", "quantifier": "for every sequence of deployments and transactions given as texts, every service, chain and worker", "why_tests_cant": "says exactly when requests are taken and what is answered, after every history of texts", "anchors": ["contracts/service-registry/src/contract.rs: unbond_worker, claim_stake, get_active_workers", "contracts/service-registry/src/state.rs: BondingState, AuthorizationState", "contracts/service-registry/src/msg.rs: ExecuteMsg, QueryMsg"]}
{"id": "C119", "title": "Stopping a chain, in texts", "statement": "Take a chain of contracts that were deployed and called with texts. (1) The text of a request to freeze a registered chain is taken by the router if and only if its admin sends it, and the same for unfreezing; a freeze adds exactly the directions that it names to what is frozen of this chain, an unfreeze takes exactly these away, and neither touches other chains. (2) Whatever texts anybody sends to any contract: whenever the router routes messages, either the nexus gateway gave them, or the gateway that the last registration or upgrade of a chain named, when what comes in from this chain was not frozen, and all of them are from this chain; and each goes to a registered chain when what goes out to it was not frozen, or, if the nexus gateway did not give it, to one that is not registered. So from the freeze until an unfreeze by the admin no message gets through the router in that direction.", "quantifier": "for every sequence of deployments and transactions given as texts, every chain and direction", "why_tests_cant": "an emergency stop must hold against every later history of texts", "anchors": ["contracts/connection-router/src/contract.rs: execute", "contracts/connection-router/src/contract/execute.rs: freeze_chain, unfreeze_chain, validate_msgs, route_messages", "contracts/connection-router/src/msg.rs: ExecuteMsg"]}
