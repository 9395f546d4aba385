# Formal model of kadev2176/axelar-amplifier in Lean 4

## Approach

The Rust sources are read as text and transcribed, function by function, into small total Lean
functions.  Every definition carries a comment citing the file and lines it models and the
simplifications made.  Properties are theorems about these functions, quantified over all inputs
and, for stateful contracts, over all finite histories of calls (any senders, any order, failing
calls included, which leave the state unchanged because CosmWasm reverts failed transactions).

Conventions of the model:

* `Except ε α` models `Result`; a Rust panic (`expect`, `assert`, arithmetic overflow - the release
  profile has `overflow-checks = true`) is an explicit error value, and reverts like an error.
* Account addresses are opaque (`Nat`); only equality and a total order are used.
* Strings whose structure matters are `List Char`.
* `cw_storage_plus` maps are functions `K -> Option V` when only point access is used and sorted
  association lists when the code iterates over them.
* Hash functions, signature verification, log decoding and external query answers are parameters.

## Per-property plan

| id | what is modelled and how it is proved |
|----|----------------------------------------|
| C01 Threshold validation is exact | `Threshold.tryFrom`, `MajorityThreshold.tryFrom` over Nat pairs below 2^64; iff theorems by case analysis + omega; ordering against cross-multiplied naturals/rationals. |
| C02 Snapshot quorum is the exact ceiling and a strict majority | `Snapshot.new` with `mulCeil`; arithmetic lemmas about ceiling division. |
| C03 Exact acceptance condition of a ballot | `WeightedPoll.castVote` as `Except Error Poll`; iff theorem by unfolding. |
| C04 One immutable ballot per participant | poll operations as a transition system, invariant/induction over operation lists. |
| C05 Tallies are exactly the recorded ballots | tally invariant by induction over operation lists. |
| C06 At most one outcome can reach quorum and it never flips | counting argument: two disjoint voter sets of weight > half; monotone tallies. |
| C07 A poll ends once, and only after expiry | iff for `finish`; induction over histories with sorted heights. |
| C08 Consensus participants are exactly the agreeing voters | characterisation of `state` on the sorted participation list. |
| C09 Verified means a quorum of that poll voted for exactly that message | full contract state machine (`VV.exec`), invariant linking stored items to polls, quorum from snapshot. |
| C10 Verification is permanent | monotonicity of the verified predicate along every step. |
| C11 A message is polled again only if it is not pending and not verified | functional characterisation of `verifyMessages`. |
| C12 Poll identifiers are fresh and polls are isolated | invariant: all polls have ids <= counter; frame lemmas. |
| C13 Only messages from the configured source chain are polled | decision logic + invariant. |
| C14 Distinct messages are tracked separately | negation with concrete colliding messages; partial theorem for the safe direction. |
| C15 Ending a poll rewards exactly the consensus participants | output characterisation + history induction. |
| C16 Worker set confirmation is sound | same invariant as C09 for worker-set polls. |
| C17 A gateway belongs to at most one chain | invariant over router histories. |
| C18 Router administration is access controlled | frame theorem per sender role, over histories. |
| C19 Frozen directions stop traffic | decision logic of `validateMsgs` and `routeMessages`. |
| C20 Freezing and unfreezing compose as sets of directions | direction flags as a pair of booleans / bit mask; algebraic laws. |
| C21 Source chain authenticity | decision logic of `validateMsgs`. |
| C22 Routing neither loses, duplicates, alters nor reorders messages | `groupBy` model, flatten lemma, per-group destination. |
| C23 Unknown destinations are only ever handed to nexus | decision logic. |
| C24 Cross-chain ids and chain names round-trip | string functions on `List Char`; round trip by induction. |
| C25 Only verified messages leave the gateway towards the router | functional characterisation of gateway routing with the verifier answer as a parameter. |
| C26 Only unverified messages are sent for verification | same. |
| C27 Outgoing messages come only from the router | refinement of the store to "last message delivered by the router". |
| C28 Batches with repeated ids are rejected | `ensureUniqueIds` iff Nodup. |
| C29 Each message is forwarded to nexus at most once | history induction; witness for the violation. |
| C30 Nexus gateway entry points are access controlled | decision logic. |
| C31 Message ids survive the conversion to and from nexus | hex encode/decode and decimal print/parse round trips. |
| C32 Bonds are conserved | ledger invariant over histories with ghost deposits/payouts. |
| C33 Stake is released only to its owner, once, and only after the unbonding period | temporal invariant over histories. |
| C34 Active workers are exactly the eligible ones | characterisation of the filter over the stored map. |
| C35 Authorisation is decided by governance alone | frame theorems over histories. |
| C36 The worker lifecycle allows only legal transitions | transition relation. |
| C37 Worker queries answer about the worker asked for | negation by witness, `_partial` for the inner query. |
| C38 An epoch is paid out at most once | watermark invariant over histories. |
| C39 Reward pools are conserved and never overdrawn | ledger invariant over histories. |
| C40 Epoch payout is bounded and equal | division bounds. |
| C41 Eligibility is exactly the participation threshold | iff using threshold comparison. |
| C42 Tallies count distinct events and all records | refinement of tallies to the log of accepted records. |
| C43 Epochs advance monotonically through parameter changes | invariant over schedules of updates. |
| C44 Rewards administration is access controlled | decision logic and frame theorems. |
| C45 A completed session carries enough valid signatures | invariant over multisig histories; signature verification is an abstract function parameter. |
| C46 Completion is recorded at the first moment the threshold is met and never undone | history induction. |
| C47 Exact acceptance condition of a signature | iff by unfolding. |
| C48 Sessions are unique and started only by authorised callers | invariant over histories. |
| C49 A worker set id always denotes the same worker set | invariant; hash is an abstract function, injectivity is an explicit hypothesis. |
| C50 Every accepted signature is credited once | output characterisation + history induction. |
| C51 Key registration is per account and key type | refinement to last-write map. |
| C52 The worker set changes only when the rotation is confirmed | history induction over the prover state machine, verifier answer as input. |
| C53 Only one rotation is in flight | history induction. |
| C54 A rotation is started exactly when membership changed enough | set-difference counting. |
| C55 Proofs carry the fewest signatures that reach the quorum | greedy optimality over the weight-sorted list. |
| C56 Batch ids ignore order and identify the batch | permutation invariance of sort; unique decoding of the joined string. |
| C57 Batches contain exactly the requested gateway messages | functional characterisation. |
| C58 Signing sessions are bound to their batch | composition of the prover with the multisig session counter. |
| C59 The signed EVM payload determines the batch | ABI head/tail encoder model, decoder, round trip. |
| C60 The signed BCS payload determines the batch | BCS encoder model (ULEB128), decoder, round trip. |
| C61 Operators are listed in ascending address order with matching weights | sortedness and permutation of the stable sort. |
| C62 New worker sets have a reachable majority threshold | corollary of C02. |
| C63 Batched calls: all mandatory, optional failures reported | model of sub-message semantics with arbitrary outcomes. |
| C64 The aggregate verifier relays without altering | relay model. |
| C65 Queued transactions are broadcast exactly once, in order, within the gas limit | transition system over select! branches; refinement to a FIFO log. |
| C66 Blocks are published once each, in order | transition system over poll ticks with arbitrary reported heights. |
| C67 Restarts neither skip nor repeat a block for a handler | runs composed over arbitrary stop points. |
| C68 EVM votes are sound | decision logic over abstract receipts/logs; decoding of logs is an abstract parameter. |
| C69 Sui votes are sound | same for Sui. |
| C70 Ballots match the poll | handler as a pure function from event and environment to broadcasts. |
| C71 Account sequence numbers follow confirmed transactions | state machine with oracle responses. |
| C72 End to end: delivery implies verification or nexus | composition of the contract models, message dispatch made explicit, invariant over histories. |
| C73 Verified means emitted on the source chain | C09/C16 (a quorum voted) combined with C68/C69 (what a vote of the daemon says) and the reading of the events. |
| C74 One source chain event, one message | counterexample: two spellings of one event id, in the model of verifier and daemon; partial: canonical spellings of different ids are different events. |
| C75 End to end: delivery implies emission on the source chain | composition of C72 (contracts on one chain) and C73 (contract and daemon); quorum assumption stated over the histories of the composed system. |
| C76 End to end: only verified messages are signed | projection of the composed history to the prover and multisig pair (System.lean), then C58 and C72 at the moment of the request. |
| C77 Daemons sign exactly the sessions they belong to | model of the signing handler reading the announcement of the multisig model; case analysis for soundness and completeness, C46-C49 for acceptance and completion, C70_stall for the stall. |
| C78 A quorum of votes verifies a message | the poll opened is tracked through every later call (its tally only grows, its participants and threshold are fixed); with the votes recorded the tally reaches the quorum and the status rule gives "verified"; the daemon versions use the handler models to turn truthful nodes into votes. |
| C79 A quorum of votes verifies a worker set | same method for worker sets, with the hypothesis that no other poll about the set is opened in between (partial); the full statement is refuted by a concrete history and by a theorem about all histories in which every vote comes too late. |
| C80 End to end: confirmed messages can be delivered | the transaction of the routing request is executed symbolically in the composed model: gateway, router, one message per destination; C78 and block order for the end-to-end form. |
| C81 Contracts can always pay | `Chain/Bank.lean` adds balances to the composed model. Invariant: a contract has at least what came in with messages and did not go out with payments; with the ledgers of C32 and C39 every payment is covered. Balances and storage evolve like the chain without balances on a sublist of the transactions. |
| C83 Rewards never block signing or voting | `Rewards/Accepts.lean`: invariant that epoch numbers never exceed block heights and counts never exceed the number of calls; `Chain/Record*.lean` lift it to transactions that submit signatures or end polls. |
| C84 Rewards follow the work done | `Chain/Books*.lean`: every message between contracts is delivered as often as it was sent (counting over deliveries), so the records at the rewards contract are those of C50 and C15; `Rewards/Books.lean` computes what is due when every piece of work is recorded once. The specification is `FollowsWork`. |
| C82 End to end: delivered messages can be proved | `Chain/Proof*.lean`: the request is executed symbolically in the composed model, with the totality lemmas of `Prover/Progress.lean` (no step of the request can fail under the conditions) and C85 for the encoders; facts about worker sets (weights one, threshold at most the number, key lengths) by invariants over the history. |
| C85 Exactly which batches can be encoded | `Encoding/AbiTotal.lean`, `Encoding/BcsTotal.lean`: the encoders are total up to explicit sizes, with bounds on the lengths of their results; the converse by inversion. |
| C86 Worker sets rotate when, and only when, the destination chain has the new set | `Chain/RotationProps.lean`: case analysis of the entry of the history that changes the set; C10 (verified forever) and C73 for the daemons; symbolic execution of the transactions for progress. |
| C87 The handlers a worker configures do not get in each other's way | `Ampd/Config.lean` models validation, labels and registration; `Ampd/ConfigProps.lean`: pairwise distinctness of list entries, suffix arguments for labels, case analysis over pairs of handlers. |
| C88 What a contract stores in one place is never reached from another | `Store/Model.lean` models raw keys and lists the items and maps of all contracts; `Store/Props.lean`: length-prefixed parts cancel, hence keys are injective, hence the raw store refines an ideal store. |
| C89 End to end: workers who just run the daemon carry messages through | `Chain/Carried.lean`: what it means that a message gets onto the chain; `Chain/DaemonsProps.lean`: the storage of the verifier is as if it had been called with every ballot that got onto the chain, including the refused ones, so C78 applies; C80 for delivery; C77 and C82 for signatures. `Chain/AskProps.lean`: symbolic execution of the request, with the totality of snapshots (C02). |
| C90 Joining with the commands of the daemon makes a worker take part | `Ampd/Commands.lean` models the commands and the protocol of the key manager; `Chain/JoinLemmas.lean`: what was done at the registry and the multisig contract stands until it is undone, by induction over the history; `Chain/JoinProps.lean` combines these, and runs the transactions symbolically. |
| C91 A worker that registered its key with the daemon's command signs when asked | `Ampd/CommandsProps.lean`: the registered key is one derived under the configured id; the handler asks for the address as id. Positive part by C77, stall by C70, sessions by induction over the calls. |
| C92 What the daemon answers to the events of a block gets into transactions | `Ampd/Pipeline*.lean`: a process is a run of the daemon (C67) with the outcomes of its handlers and the inputs of its queue (C65), joined by the channel between them. Induction over the history of processes. `Chain/PipelineProps.lean` puts such processes in the place of the assumptions of C89 on what daemons send. |
| C93 The daemon ends as a whole and says why | `Ampd/Supervise*.lean`: tasks are running or have ended; when each can end in which way is read off its code; a schedule is a list of actions. Invariant by induction over schedules, a decreasing measure for termination. |
| C94 What contracts write into events is what the daemon reads out of them | `Wire/`: serde_json's writer and parser on characters, base64 with padding, the attributes as the contracts write them, `decode_event`, and the readers of the handlers on the decoded attributes. Round trip of the parser by induction over values; the readers are then computed on what was written and characterised field by field (`Wire/Spec.lean`); that all emitted events are in range is an invariant over histories; the numbers among hexadecimal texts are characterised by the parser's branches. |
| C95 Messages between contracts survive being written as text | `Wire/Msgs.lean`: a writer and a reader for the `ExecuteMsg` of each contract, on the JSON model of C94; `Wire/TextChain.lean`: the chain of `Chain/Model.lean` with texts instead of messages. Round trip per message type; readers only give typed messages; that contracts only send typed messages (`SentTyped.lean`) is an invariant of their stores; equality of the two chains by induction on fuel and on the history. |
| C96 Questions between contracts survive being written as text | `Wire/Queries.lean`: writers and readers for the six queries that contracts make and their answers; `callText` makes the calls of `Chain/Model.lean` with questions and answers as text, and the chain of C95 uses it. Round trips per type (`QueryLemmas.lean`); that storage stays in the range of the texts is an invariant of all calls (`StoreTyped.lean`); calls depend only on the answers to what they ask (`AskLemmas.lean`); induction over histories as for C95. |
| C97 Ids stand for what they were made of | `Wire/HashText.lean`: the byte strings that are fed to Keccak-256. Injectivity from the round trips of C95 and C96 (a reader gives the value back, so equal texts are equal values) and of big-endian numbers; `C97_registered` with C95_delivered, which says that what is registered is of its type. |
| C98 What contracts store fits its type and is loaded as it was stored | `Wire/Stored.lean`: every place in the storage of the contracts (`Slot`), the value there (`stored`), how it is written and how it is read. Range: an invariant of every contract (`StoredFits.lean`, `StoredFits2.lean`), carried through dispatch (`StoredRun.lean`) beside the invariants of C95. Round trip: one lemma per type (`StoredReads.lean`). Configurations, written once when a contract is instantiated, are not covered. |
| C99 The chain executes what the daemon meant to sign, and a signature is good for nothing else | `Proto/Wire.lean`: protobuf fields, written and read; `Proto/Tx.lean`: body, auth info, sign doc and raw transaction as `sign_with` builds them; `Proto/TxSpec.lean`: what a node reads and which bytes it checks signatures against. Round trips give what is read and injectivity of the sign bytes; freshness by induction over the histories of the broadcaster (C71); the messages through C95. |
| C100 The daemon starts with the account number and sequence that the chain has | `Proto/AccountProps.lean`: round trip of `BaseAccount`; the full statement, with vesting accounts, is refuted by a concrete account. |
| C101 The gas price is the one that its text says | `Ampd/DecCoin*.lean`: `f64` as a parameter; iff for what is accepted; round trips; a counterexample to the full round trip. |
| C102 Every transaction of the daemon has the sequence number that the chain expects | `Ampd/Sequence*.lean`: the broadcaster beside the chain's counter; invariant over all histories in which nodes tell the truth; a counterexample with a second user of the account. |
| C103 What is shown of an error is complete, in order and names the right cause | `Std/Report*.lean`: error-stack reports as forests of frames, the two loops and the chaining of causes; proved against a description of how the report came about by induction over it. |
| C104 An instantiated contract has, forever, the configuration its message says, and a sensible one | `Wire/Instantiate*.lean`: instantiate messages and stored configurations of all eight contracts of `Chain`, written and read as text; whatever is read is typed, configurations are invariant under all calls; then the hypotheses `SetupTyped`, `SetupInRange`, `Config.Valid` and positive durations are consequences of `Founded`. |
| C105 Contracts may be instantiated at any time, in any order: it makes no difference | `Chain/Deploy*.lean`, `Wire/DeployText*.lean`: steps are transactions or instantiations; a simulation with the contracts still to come filled in, by monotonicity of every call in the answers of the contracts it asks; then the same with texts, where what a text means depends on the contract that is there. |
| C106 What a client built on the API packages writes, the contracts read as it was meant | `Wire/Api*.lean`: the two packages with their writers and readers; the pattern for names is shown to be the one in the comment above it; texts are then read by the contracts with the readers of C95. |
| C107 Who reads the events of the contracts can tell what they would answer | `Chain/Relay*.lean`: invariant, over all messages under way within transactions, that what gateways keep plus what the router has sent them and is not delivered yet is what follows from the events of the router. `Wire/Log*.lean`: events as text, an observer who reads them, and for multisig contracts an invariant over their calls; both joined with C95 and C97. `Wire/PollLog*.lean`: an observer of the events of polls; invariant over the calls of a verifier that the polls and results heard of are those stored. |
| C108 The daemon runs with what its operator configured, or fails | `Ampd/Startup*.lean`: tables laid over each other as the `config` crate does it, by induction over paths and sources; the settings in effect and the refused configurations are characterised (iff); the start and the state file as functions; a daemon without handlers in the model of its tasks (`Supervise.lean`). |
| C109 End to end: a completed proof carries what was signed | `Prover/Content.lean`: which batches a step begins, and that begun batches are kept while no batch with a transfer has the id of another one (invariant over the pair of prover and multisig contract); `Chain/ContentProps.lean` lifts it to the composed system, with the hypothesis stated about the history and reduced to plain ids, no hash collisions and no reordered requests (C109_apart); the corner is shown in a history of the composed system. |
| C110 The logs of an EVM gateway are understood as the contract meant them | `Ampd/EvmLog*.lean`: the generated decoder and `ethabi`s reading of `bytes` and `address` as functions on bytes; against the independent encoder and reader of `Encoding/Abi.lean` (C06): what the EVM writes is decoded to what was emitted, and what is decoded is what Solidity reads; joined with C68 and, in `Chain/LogProps.lean`, with C75 and C76. |
| C111 Users get true answers, and a relayer reads in a proof what was signed | `Wire/Users*.lean`: the remaining queries as texts and their answers; the truth is stated on the stored state, the reader is separate from the writer; what contracts store is in range (C98), what provers compute consists of bytes (`Encoding/ExecuteOctets.lean`), so answers are read back; joined with C105, C109 and C110 into one statement about texts only. |
| C112 The events of a Sui gateway are understood as the package meant them | `Wire/SuiEvents*.lean`: the derived readers of the two structures as functions on JSON values; what contents say is a relation on the value alone; equivalence by cases on the value, then joined with C69 and with C75 and C76. |
| C113 End to end in texts and bytes: from the source chain to the text of a proof | `Wire/EndToEnd*.lean` with `Chain/OriginLemmas.lean`: honesty of a worker as a predicate on the texts sent and the raw events published; every vote call of a log goes back to a text of a transaction (no contract sends votes), and an answer to a raw event, whichever contract published it, can only have been given to an event of the own verifier; this gives the hypothesis of C82, C110 to C112, whose conclusions are then joined. |
| C114 Carrying a message through, in texts and bytes | `Wire/Carry*.lean`: the converse of C113. A history of texts is replaced by its meaning (C105), a transaction after it by the meaning of the transaction; the raw event read by a daemon gives back the event of the verifier (C94), the log with the bytes of the EVM makes the handler vote yes (C110, C112); the ballot is counted (C78), the route is C80, and the question to the destination gateway and its answer are C111. `Wire/Asked*.lean`: the poll is opened by C89. `Wire/Signed*.lean`, `Wire/Request*.lean`, `Chain/Sign*Lemmas.lean`: the request is C82, the raw event of the session is read back by C94, a signature is accepted by C47 and C83, and recorded signatures that reach the threshold complete the session (C46) and with it the proof (C85). |
| C115 Rotating the worker set, in texts and bytes | `Wire/Rotate*.lean`: C86 and C79 with texts and bytes. The history of texts is replaced by its meaning (C105); questions and answers are C111; the raw event of the poll is read back by C94; the votes of the daemons are C110 and C112; a vote is accepted and counted as in C114. The converse is the safety of C86 with the sources of C113. `Chain/AskSetLemmas.lean`: a request to verify a set that is not verified opens a poll. |
| C116 Joining with the commands of the daemon, in texts | `Wire/JoinText*.lean`: C90 with texts. The text of a command is read as the message that it was written from (C95), the history of texts is replaced by its meaning (C105), what stands in the log depends only on the delivered messages, which both logs share; questions and answers are C111, the first set is as in C115. |
| C117 Rewards follow the work and are paid, in texts | `Wire/PaidProps.lean`: C84 for the meaning of the history of texts (C105). A request to distribute is read as what it was written from (C95) and is one step of the rewards contract: when it is taken is C38, what it pays is the lemma behind C38 and C39. |
| C118 Stake and membership follow the texts sent to the registry | `Wire/Leave*.lean`: the calls that a registry executed are read off the log of the chain of texts; they are the history of the registry (C105 and the invariant of the chain), so C32-C36 apply. One request is one step of the registry, read as what it was written from (C95); the question and its answer are C111. |
| C119 Stopping a chain, in texts | `Wire/Stop*.lean`: the calls that a router executed are read off the log of the chain of texts; they are the history of the router, so C18-C20 apply. One request is one step of the router, read as what it was written from (C95). |

## Layout

| directory in `lean/Verif` | code in `/repo` |
|---|---|
| `Base` | lists, key-value stores, histories, strings, decimal and hexadecimal text (no repository code of its own) |
| `Std` | `packages/axelar-wasm-std`: thresholds, snapshots, weighted polls, flag sets; `packages/report` |
| `VV` | `contracts/voting-verifier` |
| `Router` | `contracts/connection-router` |
| `Gateway` | `contracts/gateway` |
| `Nexus` | `contracts/nexus-gateway` |
| `Registry` | `contracts/service-registry` |
| `Rewards` | `contracts/rewards` |
| `Multisig` | `contracts/multisig` |
| `Encoding` | `contracts/multisig-prover/src/encoding` (ABI and BCS) |
| `Prover` | `contracts/multisig-prover`; `System*` composes it with the multisig contract |
| `Glue` | `contracts/batching`, `contracts/aggregate-verifier` |
| `Ampd` | `ampd`: broadcaster, queue, event subscription, daemon, handlers, verifiers; `Pipeline*` joins handlers and queue; `Supervise*` has the tasks and how they end; `Startup*` the configuration and the start; `Trust*` composes handlers and verifier contract |
| `Store` | the items and maps of all contracts and the raw keys of their entries |
| `Wire` | events and messages as text: JSON, base64, the attributes of events, `packages/events`, the deserialisers of the handlers; `Msg*`, `TextChain*`: the messages of all contracts as text, and the chain with texts; `Query*`, `Ask*`: what contracts ask each other as text; `Hash*`: what ids are hashes of; `Stored*`: what contracts store, as text; `Instantiate*`: instantiation; `DeployText*`: histories from a chain without contracts; `Api*`: `packages/connection-router-api`, `packages/gateway-api`; `Log*`: events of a whole chain and somebody who reads them |
| `Proto` | transactions of the daemon as protobuf (`ampd/src/broadcaster/tx.rs`, `accounts.rs`) |
| `Chain` | all contracts on one chain, their messages and queries dispatched to each other; `Trust*` adds the daemons, `Bank*` the balances |

In each directory `Model.lean` transcribes the code, `Spec.lean` holds the vocabulary of the statements,
`Lemmas.lean` auxiliary facts, `Props.lean` the property theorems (names start with the property id) with a
concrete case beside each.

## Trusted base

* Lean's kernel (4.33.0).  No `native_decide`, `bv_decide`, `sorry`, `unsafe` or own axioms.
* Axioms: at most `propext`, `Classical.choice` and `Quot.sound`.  The list per theorem is at the end of this file.
* That the definitions cited as modelling a piece of code compute what that code computes.  This is a reading of the
  Rust sources; it is not machine-checked.  Each definition cites its lines.
* CosmWasm's execution model: a transaction is atomic, an error or panic in a contract reverts the calls it made,
  submessages run depth first in order, `reply` is called as asked for, queries see the state at the time of the
  call, and the block height and time do not decrease where a theorem says so (only where it says so).
* The layout of raw keys of `cw-storage-plus` 1.1.0 as stated in `Store/Model.lean` (its source is not in `/repo`).  The
  models of the contracts use one function per item or map; C88 justifies this for keys that can be built.
* What is taken as a parameter, so that the theorems hold for every choice of it:
  * hash functions (Keccak-256), with only the length of the result assumed where needed; what is
    hashed into ids is in `Wire/HashText.lean` (C97).
    No theorem assumes that a hash is injective; where collisions matter, the statement excludes collisions among the
    values at hand by name (`NoCollisions`, `SetsDistinct`, `SetsDistinctAt`);
  * signature verification and public key recovery;
  * Unicode lower-casing of chain names (`Lowering`: idempotent, keeps emptiness and the separator apart);
  * JSON (de)serialisation for the aggregate verifier and of configuration files of the daemon, taken to
    give back what was written, with the exceptions found in the code (the aggregate verifier's reply type).  For the events that the daemon reads
    and the messages that it sends (C94), for all execute messages (C95), for what contracts ask each other (C96; not for the
    aggregate verifier), for what users ask (C111, where recovery ids are assumed to be at most 3), for what contracts store while they run (C98) and for instantiate messages and stored configurations (C104), this is not assumed but proved in `Wire/`
    about `serde_json` as transcribed there (its source is not in `/repo`; integers above 2^64 and all fractions are kept
    as text, `finite` says whether such a text is a finite `f64`; nesting up to 128; `serde-json-wasm`, which contracts use,
    is taken to read the same JSON), `base64` with padding, and the node, which prefixes the type of the event by `wasm-` and
    puts `_contract_address` in front (the chain's own trimming of attributes and refusal of empty ones is not modelled; events of
    instantiation are left out of C107).  In C95 a text that is no address is refused when it is read (in the code by
    `addr_validate`, or by the failing call), and Keccak-256 is assumed to yield bytes, in C98 also the
    parsing of EVM addresses;
  * protobuf as written and read by `prost`, and the messages of `cosmrs` and `cosmos-sdk-proto`, as transcribed in `Proto/`
    (C99, C100; their sources are not in `/repo`): groups are refused, defaults are not written.  What is signed is the
    SHA-256 of the sign bytes; C99 speaks of the sign bytes.  Of `f64`, C101 assumes what `Lib.Std` says; C102 takes from the
    chain that a transaction gets into a block only with the next sequence number, and that nodes tell the truth about it;
  * error-stack's reports as forests of frames, walked depth first (`History.frames` in `Std/Report.lean`), and Rust's `{:?}` of
    a string (C103);
  * the text of addresses: any injective text that begins with `axelar1` (`Texts.Faithful`);
  * `decode_log` as generated by `ethers-contract` 2.0.8 and the decoder of `ethabi` 18.0.0, as transcribed in
    `Ampd/EvmLog.lean` (C110; elsewhere any decoder), with Keccak-256 and `String::from_utf8_lossy` as parameters
    (`LogLib`); the readers of `SuiAddress` and `Hash` as transcribed in `Wire/SuiEvents.lean` (C112; elsewhere any
    reader of Sui event contents); the replies of all nodes and of the signer (`tofnd`);
  * floating point arithmetic on gas, wall clock time, scheduling of the daemon's tasks (all schedules are covered
    because the choice is an input of each step).
* Addresses are compared and ordered but not parsed; `addr_validate` is the identity.

## What is modelled and what is not

Modelled: the execute, query and reply entry points of all nine contracts listed above, with their checks in source
order; the encoders of the prover; in the daemon, the event subscription, event processor,
state file, handlers for EVM and Sui messages and worker sets, the EVM and Sui verifiers, the EVM finalizers, the
signing handler, the message queue, the broadcaster and its account sequence, the supervision of the tasks, the commands with
which a worker joins.

Not modelled: JSON schemas; gas; the text of errors (the shape of what is logged of them, `packages/report`, is in
`Std/Report.lean`); the command line and network clients of the daemon, the formats of its
configuration files (how they are found, merged and read is in `Ampd/Startup.lean`, where the `config` crate is taken to
merge tables name by name and to replace everything else; the value of the block height monitor (an input), `grpc` and JSON-RPC clients); the code of `tofnd` (for the
commands, C90 and C91, its protocol is modelled in `Ampd/Commands.lean`: a mnemonic and a key id determine a key), of the Axelar
chain's own modules, of external gateways; `packages/*-derive`.

## Findings

Where the code does not have a property one would expect, the negation is proved with a concrete history and the
part that does hold is kept with the suffix `_partial`.

1. `Message::hash` concatenates fields of variable length: different messages can have one hash (`C14_counterexample`).
2. The `GetWorker` query swaps its arguments (`C37_counterexample`, `C111_counterexample`); `GetPoll` is `todo!()`.
3. The nexus gateway forwards twice a message listed twice in one batch (`C29_counterexample`); the router never sends
   such a batch (`C29_at_most_once`).
4. The rewards contract forfeits a worker's reward for an event that is recorded again in a later epoch
   (`C41_recorded_twice_forfeits`).  The contracts of the protocol never do that (`C84_signing_rewards`,
   `C84_voting_rewards`).
5. The aggregate verifier cannot decode the reply of the voting verifier: every `Verify` through it fails
   (`C64_voting_verifier_rejected`).
6. Unfreezing a chain emits the event `ChainFrozen`, so that all events together do not tell which chains are frozen
   (`C107_frozen_counterexample`).
7. A gateway overwrites an outgoing message by a later one with the same id.
8. A batch is stored under an id that depends on the new worker set, but looked up without it, so a batch with a
   rotation is rebuilt each time; an empty list of messages is accepted.
9. `VerifyWorkerSet` opens another poll while one is in progress, and only the latest poll counts, so anyone can make
   the votes of the workers count for nothing (`C79_counterexample`, `C79_stalled`).
10. Batch ids join message ids by commas, so ids with commas collide (`C56_counterexample`).
11. A node that reports a lower height makes the subscription publish blocks again (`C66_counterexample_regress`).
12. The proof-of-work finalizer underflows if the chain is shorter than the confirmations asked for
    (`C68_pow_underflow`), and the EVM message handler votes "not found" when its node does not answer.
13. Signatures with high `s` are accepted by the multisig contract but dropped when the proof is encoded.
14. The nexus gateway may itself be registered as the gateway of a chain; the conversion of ids from nexus is not
    injective for hashes of different lengths.
15. A service may have a minimum bond of zero.
16. A worker set with threshold zero is accepted at registration; the grace period may overflow.
17. A completed proof may show a content that was not signed, if two rotations are requested in one block with the
    same messages in different orders (`C58_counterexample`; `C109_counterexample` in the composed system).
18. The ABI parameters of `approveContractCall` have five head words; the gateway contracts expect six fields.
19. A failed broadcast loses the queued messages (`C65_failure_loses`); the code of the broadcast reply is ignored.
20. `skip_to_block` swallows overflow errors (`C67_counterexample_lag`); completed blocks are handled again after a
    kill (`C67_counterexample_kill`).
21. Handlers decode the whole event before they look at the contract address, so an undecodable poll event of any
    contract makes them fail and stops the acknowledgement of blocks (`C70_stall`, `C70_unreadable_chain_stalls`), and
    in a daemon with EVM and Sui handlers, handlers are stopped by polls of the other kind (`C70_foreign_poll_stalls_evm`).
22. Message ids are not canonical: one event of a source chain can be verified, routed and signed as several messages
    (`C74_counterexample`).
23. One registered public key that is not a curve point - the multisig contract only checks the length - makes every
    daemon fail upon every session of a worker set with that key, so that one worker stops all signing
    (`C77_bad_key_stalls`). The same happens upon a digest whose hexadecimal text reads as a JSON number
    (`C77_unreadable_digest_stalls`, `C94_digest_stalls`: for digests exactly if the text is a number in the sense of
    `NumberText`, about one in 10^13; whoever can choose the contents of messages can search for one).
24. One active worker without a registered key is enough for no proof of new messages to be made, although no rotation
    is due: the prover builds the would-be worker set upon every request (`Chain/ProofExample.lean`).  A message with a
    malformed destination address can be routed but never proved (`C85_batch`).
25. An EVM chain may be configured under the name `sui` next to the Sui handlers; both then share a label, the receiver
    of the first is closed, and its handler stops at the first end of a block (`C87_counterexample`).  Names of chains are
    compared with capitals when the configuration is read but without when polls are handled, so `polygon` and `Polygon`
    are both accepted and vote twice (`C87_two_answers`), and `ethereum` gets the wrong finalizer (`C87_finality`).
26. The signing handler asks the key manager for signatures under the address of the multisig contract as key id, but the
    key that the command `register-public-key` registers is generated under `tofnd_config.key_uid` (by default
    `axelar`).  After the protocol of the key manager these are different keys, so the daemon of a worker that joined
    with the commands never signs, and its signing handler is stopped by the first session that lists it (`C91_never_signs`, `C91_stalls`,
    `C91_no_session_completes`, `C91_counterexample`), unless the key id is set to the address of the contract
    (`C91_signs_partial`).
27. The daemon records a block as completed when its handlers have queued their answers, before these are broadcast, and
    writes the state also when the last broadcast fails: the answer is lost, and the block is never given to the handler
    again (`C92_counterexample`, `C92_never_again`).
28. A handler that fails is not noticed as long as another handler is running: `try_join_all` returns early only when a
    task panicked (`C93_silent`).  When the last handler fails, the ends of the state updater and of the broadcaster, both
    `Ok`, may be noticed before that of the event processor, and the daemon exits with success
    (`C93_counterexample`, `C93_unreported`).  Failures after a signal are dropped (`C93_counterexample_flush`).
29. Attributes are parsed as JSON first and taken as text only if that fails: a verifier for a chain that is called `1`,
    `null` or `true` stops the message handlers of all daemons with its first poll (`C94_chain_name_stalls`), and a chain
    whose name is in quotes is taken for the one without (example in `Wire/Examples.lean`).
30. `nonempty::Uint128` and `nonempty::Uint256` check for zero in `TryFrom` but derive `Deserialize` without it: the rewards
    contract accepts `rewards_per_epoch` "0", while `epoch_duration` "0" is refused (`C95_zero_counterexample`).
31. The kind of the account that the node returns is not looked at: the bytes of an account with locked tokens
    (`DelayedVestingAccount`) are decoded as a `BaseAccount` with number 0 and sequence 0 if they happen to be UTF-8
    (`C100_kind_unchecked`); if not, the daemon does not start.
32. Prices can be made that are not read as they are written: 5 of `1x` is read as 51 of `x`, and an amount in scientific
    notation loses its exponent to the denomination (`C101_not_round`, examples in `Ampd/DecCoinProps.lean`).
33. The commands (`bond-worker` and so on) use the same account as the daemon, which reads its sequence number only when it
    starts.  After a command is run beside the daemon, the next broadcast of the daemon fails, which ends it
    (`C102_shared_account`, `C102_other_use`).
34. When two failures are joined into one report (`commands/daemon.rs:17`: the daemon failed and its state could not be
    written; `broadcaster.rs:230`: several lookups failed), the log shows the second as the cause of the first
    (`C103_joined`, `C103_cause_counterexample`).
35. Messages written with `packages/connection-router-api` and `packages/gateway-api` that carry cross-chain messages are
    refused by every contract (`C106_refused`): the contracts' own `Message` has other fields.  Nor do these packages read
    what contracts write (`C106_not_read`), and some chains that contracts accept cannot be named (`C106_unnameable`).
36. The event `voted` does not tell the votes, and `GetPoll` is `todo!()`, so that the answer of `IsVerified`, which counts
    votes before a poll is ended, cannot be checked against events or other answers (`C107_votes_counterexample`).
    The events of a gateway are the same for a message it keeps for its own chain and for one it passes on
    (`C107_gateway_counterexample`); only the events of the router tell them apart.
    The events of a poll do not tell how the id of a message was spelled (`0xab:1` or `0xab:01`), so that two messages
    with different ids look the same in them (`C107_id_counterexample`).
37. A configuration that cannot be parsed or is refused does not stop the daemon: it goes on with the default one
    (`ampd/src/main.rs:103-110`), which has no handlers, and as the event processor then has nothing to wait for, the
    daemon ends at once with success (`C108_mistaken`, `C108_idle`, `C108_success`).  The commands then use the key id
    `axelar` whatever is configured (`C108_counterexample`).  One missing field in a section is enough (`C108_refused`).
38. `state::load` takes a state file that exists but cannot be read for a missing one, and the daemon writes an empty
    state over it when it ends, even if it could not be started (`C108_unreadable`): heights and key are lost.
39. Strings in EVM logs need not be UTF-8; the daemon reads what is not with U+FFFD in its place, so that calls to
    different addresses are voted for as the same message (`C110_counterexample`; at most one can be at the log index
    that the message id names, so no message is verified twice, but its address may not be that of the call).

## Axioms per theorem

* no axioms (2): `Ampd.C66_no_start`, `Encoding.Abi.C61_address_abi`
* propext (23): `Aggregate.C64_query_never_relays`, `Ampd.C102_shared_account`, `Ampd.C108_state`, `Ampd.C108_unreadable`, `Ampd.C65_failure_loses`, `Ampd.C66_counterexample_regress`, `Ampd.C67_counterexample_kill`, `Ampd.C67_counterexample_lag`, `Ampd.C93_counterexample`, `Ampd.C93_counterexample_flush`, `Ampd.DecCoin.C101_proto`, `Ampd.Evm.C68_one_message_per_log`, `Ampd.Evm.C68_pow_underflow`, `Gateway.C27_delivery`, `Gateway.C28_duplicates`, `Registry.C34_unknown_service`, `Registry.C37_inner_query_partial`, `Router.C24_chain_names`, `Router.C24_roundtrip`, `Router.C24_show_injective`, `Std.C01_threshold_exact`, `VV.C14_no_substitution`, `VV.C16_not_repolled`
* propext, Quot.sound (39): `Aggregate.C64_relayed_unchanged_partial`, `Ampd.C102_other_use`, `Ampd.C67_recorded`, `Ampd.C71_confirm`, `Ampd.C71_sequence`, `Ampd.C71_used`, `Ampd.C93_complete`, `Ampd.C93_reported_partial`, `Ampd.C93_silent`, `Ampd.C93_unreported`, `Ampd.DecCoin.C101_config`, `Ampd.DecCoin.C101_round_partial`, `Ampd.DecCoin.C101_text`, `Encoding.Abi.C59_approval_roundtrip`, `Gateway.C25_history`, `Gateway.C25_only_verified`, `Gateway.C26_only_unverified`, `Gateway.C27_outgoing_from_router`, `Gateway.C27_query_exact`, `Gateway.C27_stored_under_own_id`, `Gateway.C28_forwarded_distinct`, `Prover.C55_total`, `Rewards.C40_bound`, `Rewards.C40_epoch_total`, `Rewards.C40_shares`, `Rewards.C41_eligibility`, `Router.C24_parse_sound`, `Std.C07_finish_iff`, `Store.C88_builds`, `VV.C11_answers`, `VV.C11_not_repolled`, `VV.C11_polled_exactly`, `VV.C13_rejected`, `VV.C15_end_poll_rewards`, `VV.C15_only_end_poll`, `Wire.Api.C106_capital`, `Wire.Api.C106_name`, `Wire.Api.C106_same_chain`, `Wire.C94_verifier_fits`
* propext, Classical.choice, Quot.sound (459): `Aggregate.C64_voting_verifier_rejected`, `Ampd.C102_in_step_partial`, `Ampd.C108_counterexample`, `Ampd.C108_idle`, `Ampd.C108_in_use_partial`, `Ampd.C108_mistaken`, `Ampd.C108_paths`, `Ampd.C108_refused`, `Ampd.C108_success`, `Ampd.C65_batches`, `Ampd.C65_flush`, `Ampd.C65_order`, `Ampd.C65_tick`, `Ampd.C66_complete`, `Ampd.C66_contiguous`, `Ampd.C66_once`, `Ampd.C67_contiguous_partial`, `Ampd.C67_resume_partial`, `Ampd.C67_run`, `Ampd.C70_foreign_poll_stalls_evm`, `Ampd.C70_foreign_poll_stalls_sui`, `Ampd.C70_stall`, `Ampd.C70_stall_run`, `Ampd.C70_unreadable_chain_stalls`, `Ampd.C87_accepts`, `Ampd.C87_all_listened`, `Ampd.C87_counterexample`, `Ampd.C87_finality`, `Ampd.C87_labels`, `Ampd.C87_listened`, `Ampd.C87_one_answer_partial`, `Ampd.C87_own_name`, `Ampd.C87_two_answers`, `Ampd.C92_answered`, `Ampd.C92_answered_partial`, `Ampd.C92_counterexample`, `Ampd.C92_never_again`, `Ampd.C92_origin`, `Ampd.C92_transactions`, `Ampd.C93_result`, `Ampd.C93_shutdown`, `Ampd.C93_stops`, `Ampd.C93_stops_after_block`, `Ampd.DecCoin.C101_not_round`, `Ampd.Evm.C110_bytes_partial`, `Ampd.Evm.C110_call`, `Ampd.Evm.C110_counterexample`, `Ampd.Evm.C110_says_call`, `Ampd.Evm.C110_says_transfer`, `Ampd.Evm.C110_sets`, `Ampd.Evm.C110_sets_voted`, `Ampd.Evm.C110_transfer`, `Ampd.Evm.C110_voted`, `Ampd.Evm.C110_votes`, `Ampd.Evm.C68_exact`, `Ampd.Evm.C68_pow_height`, `Ampd.Evm.C68_sound`, `Ampd.Evm.C68_worker_set_complete`, `Ampd.Evm.C68_worker_set_sound`, `Ampd.Evm.C70_evm_messages`, `Ampd.Evm.C70_evm_messages_accepted`, `Ampd.Evm.C70_evm_messages_else`, `Ampd.Evm.C70_evm_worker_set`, `Ampd.Evm.C70_evm_worker_set_accepted`, `Ampd.Evm.C70_evm_worker_set_else`, `Ampd.Evm.C73_verified_emitted`, `Ampd.Evm.C73_worker_set_transferred`, `Ampd.Evm.C78_evm_daemons_verify`, `Ampd.Signing.C77_accepted`, `Ampd.Signing.C77_bad_key_stalls`, `Ampd.Signing.C77_completes`, `Ampd.Signing.C77_consults_only`, `Ampd.Signing.C77_daemons_complete`, `Ampd.Signing.C77_submits`, `Ampd.Signing.C77_submits_only`, `Ampd.Signing.C77_unreadable_digest_stalls`, `Ampd.Signing.C91_counterexample`, `Ampd.Signing.C91_never_signs`, `Ampd.Signing.C91_no_session_completes`, `Ampd.Signing.C91_signs_partial`, `Ampd.Signing.C91_stalls`, `Ampd.Sui.C69_exact`, `Ampd.Sui.C69_one_message_per_event`, `Ampd.Sui.C69_sound`, `Ampd.Sui.C69_worker_set_complete`, `Ampd.Sui.C69_worker_set_sound`, `Ampd.Sui.C70_sui_messages`, `Ampd.Sui.C70_sui_messages_accepted`, `Ampd.Sui.C70_sui_messages_else`, `Ampd.Sui.C70_sui_worker_set`, `Ampd.Sui.C70_sui_worker_set_accepted`, `Ampd.Sui.C70_sui_worker_set_else`, `Ampd.Sui.C73_verified_emitted`, `Ampd.Sui.C73_worker_set_transferred`, `Ampd.Sui.C78_sui_daemons_verify`, `Batching.C63_batch`, `Batching.C63_dispatch`, `Batching.C63_mandatory_failure`, `Chain.C105_delivered`, `Chain.C105_deployed`, `Chain.C105_founded`, `Chain.C109_apart`, `Chain.C109_content_partial`, `Chain.C109_counterexample`, `Chain.C110_delivered`, `Chain.C110_signed`, `Chain.C112_delivered`, `Chain.C112_signed`, `Chain.C29_at_most_once`, `Chain.C72_delivered`, `Chain.C72_to_nexus`, `Chain.C74_canonical_h256_partial`, `Chain.C74_canonical_partial`, `Chain.C74_counterexample`, `Chain.C74_same_content_partial`, `Chain.C75_delivered_emitted`, `Chain.C75_to_nexus_emitted`, `Chain.C76_shown_verified`, `Chain.C76_signed_emitted`, `Chain.C76_signed_verified`, `Chain.C80_confirmed_delivered`, `Chain.C80_confirmed_verified`, `Chain.C80_route_delivers`, `Chain.C81_backed_registry`, `Chain.C81_backed_rewards`, `Chain.C81_claim`, `Chain.C81_distribution`, `Chain.C81_pays`, `Chain.C81_refines`, `Chain.C82_again`, `Chain.C82_completed`, `Chain.C82_requested`, `Chain.C83_end_poll`, `Chain.C83_signature`, `Chain.C84_signing_rewards`, `Chain.C84_voting_rewards`, `Chain.C86_confirmed`, `Chain.C86_first`, `Chain.C86_requested`, `Chain.C86_rotation_transferred`, `Chain.C86_rotation_verified`, `Chain.C89_asked`, `Chain.C89_delivered`, `Chain.C89_proved`, `Chain.C89_verified`, `Chain.C90_bond_accepted`, `Chain.C90_declare_accepted`, `Chain.C90_first_set`, `Chain.C90_joined`, `Chain.C90_polled`, `Chain.C90_register_accepted`, `Chain.C92_proved`, `Chain.C92_verified`, `Encoding.Abi.C59_approval_injective`, `Encoding.Abi.C59_data_roundtrip`, `Encoding.Abi.C59_digest`, `Encoding.Abi.C59_injective`, `Encoding.Abi.C61_execute_abi`, `Encoding.Abi.C61_operators_abi`, `Encoding.Abi.C61_transfer_abi`, `Encoding.Bcs.C60_approval_injective`, `Encoding.Bcs.C60_approval_roundtrip`, `Encoding.Bcs.C60_data_roundtrip`, `Encoding.Bcs.C60_digest`, `Encoding.Bcs.C60_injective`, `Encoding.Bcs.C61_execute_bcs`, `Encoding.Bcs.C61_operators_bcs`, `Encoding.Bcs.C61_transfer_bcs`, `Multisig.C45_completed`, `Multisig.C45_report`, `Multisig.C46_moment`, `Multisig.C46_no_delay`, `Multisig.C46_permanent`, `Multisig.C46_signatures_permanent`, `Multisig.C47_acceptance`, `Multisig.C48_authorised`, `Multisig.C48_callers`, `Multisig.C48_ids`, `Multisig.C48_immutable`, `Multisig.C48_origin`, `Multisig.C49_content_addressed`, `Multisig.C49_forever`, `Multisig.C49_stable`, `Multisig.C50_completion_once`, `Multisig.C50_exactly_once`, `Multisig.C50_per_call`, `Multisig.C51_registered_key`, `Multisig.C51_signature_length`, `Nexus.C29_across_calls`, `Nexus.C29_at_most_once_partial`, `Nexus.C29_counterexample`, `Nexus.C29_exact`, `Nexus.C29_never_lost`, `Nexus.C30_access`, `Nexus.C30_effects`, `Nexus.C31_injective`, `Nexus.C31_not_injective_to_nexus`, `Nexus.C31_roundtrip`, `Nexus.C31_usual_ids`, `Nexus.C31_well_formed`, `Proto.C100_base_partial`, `Proto.C100_first_partial`, `Proto.C100_kind_unchecked`, `Proto.C99_contracts_read`, `Proto.C99_fresh`, `Proto.C99_node_reads`, `Proto.C99_one_signature`, `Proto.C99_sign_bytes`, `Proto.C99_simulated`, `Prover.C52_change`, `Prover.C52_proposed`, `Prover.C52_unconfirmed`, `Prover.C53_one_rotation`, `Prover.C53_refused`, `Prover.C54_started`, `Prover.C54_update`, `Prover.C55_fewest`, `Prover.C55_proof`, `Prover.C56_counterexample`, `Prover.C56_identifies`, `Prover.C56_order`, `Prover.C57_refused`, `Prover.C57_request`, `Prover.C57_reused`, `Prover.C57_stored`, `Prover.C57_with_gateway`, `Prover.C58_bound_partial`, `Prover.C58_counterexample`, `Prover.C58_current_registered`, `Prover.C58_link_permanent`, `Prover.C58_proof_partial`, `Prover.C58_session`, `Prover.C58_signed`, `Prover.C62_built`, `Prover.C62_reachable`, `Prover.C62_with_registry`, `Prover.C85_batch`, `Prover.C85_payload`, `Registry.C32_service_ledger`, `Registry.C32_solvent`, `Registry.C32_worker_ledger`, `Registry.C33_claimable`, `Registry.C33_not_repeated`, `Registry.C33_release`, `Registry.C34_active_workers`, `Registry.C35_authorisation`, `Registry.C35_governance_only`, `Registry.C35_services`, `Registry.C36_state_from_history`, `Registry.C36_transitions`, `Registry.C36_unbond_iff`, `Registry.C37_counterexample`, `Registry.C37_wrong_record`, `Report.C103_cause_counterexample`, `Report.C103_cause_partial`, `Report.C103_joined`, `Report.C103_shown`, `Report.C103_text`, `Rewards.C38_at_most_once`, `Rewards.C38_consecutive`, `Rewards.C38_extent`, `Rewards.C38_payment`, `Rewards.C39_distribution`, `Rewards.C39_pool_ledger`, `Rewards.C39_solvent`, `Rewards.C40_distribution`, `Rewards.C41_due_from_history`, `Rewards.C41_recorded_twice_forfeits`, `Rewards.C42_event_home`, `Rewards.C42_tally`, `Rewards.C43_epoch_contains`, `Rewards.C43_monotone`, `Rewards.C43_other_calls`, `Rewards.C43_start_not_future`, `Rewards.C43_update_no_skip`, `Rewards.C44_deposit`, `Rewards.C44_params_governance`, `Rewards.C44_records_own`, `Rewards.C83_record_accepted`, `Router.C17_gateway_unique`, `Router.C17_lookup_exact`, `Router.C17_no_panic`, `Router.C18_chains_persist`, `Router.C18_changes_authorised`, `Router.C18_gateway_history`, `Router.C18_routing_and_config`, `Router.C18_unauthorised_rejected`, `Router.C19_frozen_blocks`, `Router.C19_frozen_error`, `Router.C19_routed_iff`, `Router.C20_frozen_history`, `Router.C20_step`, `Router.C21_source_authentic`, `Router.C21_strangers_rejected`, `Router.C22_conservation`, `Router.C22_each_message`, `Router.C23_no_bounce`, `Router.C23_unknown_to_nexus`, `Std.C01_compare_rational`, `Std.C01_majority_exact`, `Std.C02_participants`, `Std.C02_quorum_exact`, `Std.C02_snapshot_total`, `Std.C03_cast_effect`, `Std.C03_cast_errors`, `Std.C03_cast_iff`, `Std.C04_ballot_immutable`, `Std.C04_ballot_provenance`, `Std.C04_fixed_data`, `Std.C05_tally_exact`, `Std.C06_consensus_iff`, `Std.C06_no_consensus_iff`, `Std.C06_stable`, `Std.C06_unique`, `Std.C07_finished_is_final`, `Std.C08_consensus_participants`, `Std.C08_results`, `Store.C88_chain_workers`, `Store.C88_gateway`, `Store.C88_gateway_chains`, `Store.C88_multisig`, `Store.C88_nexus`, `Store.C88_prover`, `Store.C88_registry`, `Store.C88_rewards`, `Store.C88_router`, `Store.C88_session_signatures`, `Store.C88_verifier`, `VV.C09_quorum_is_majority`, `VV.C09_verified_sound`, `VV.C10_verified_forever`, `VV.C10_worker_set_verified_forever`, `VV.C11_tracked_after`, `VV.C12_fixed_data`, `VV.C12_isolation`, `VV.C12_poll_ids`, `VV.C13_source_chain_only`, `VV.C14_counterexample`, `VV.C14_independent_partial`, `VV.C15_at_most_once`, `VV.C15_records_exact`, `VV.C16_worker_set_sound`, `VV.C78_quorum_verifies`, `VV.C78_votes_verify`, `VV.C79_counterexample`, `VV.C79_quorum_verifies_partial`, `VV.C79_stalled`, `Wire.Api.C106_admin_partial`, `Wire.Api.C106_clients`, `Wire.Api.C106_not_read`, `Wire.Api.C106_refused`, `Wire.Api.C106_unnameable`, `Wire.C104_end_poll`, `Wire.C104_forever`, `Wire.C104_history`, `Wire.C104_load`, `Wire.C104_range`, `Wire.C104_read`, `Wire.C104_setup`, `Wire.C104_typed`, `Wire.C105_delivered_text`, `Wire.C105_history`, `Wire.C105_text`, `Wire.C107_caller`, `Wire.C107_frozen_counterexample`, `Wire.C107_gateway`, `Wire.C107_gateway_counterexample`, `Wire.C107_id_counterexample`, `Wire.C107_key`, `Wire.C107_multisig`, `Wire.C107_router`, `Wire.C107_verifier`, `Wire.C107_votes_counterexample`, `Wire.C107_worker_set`, `Wire.C111_answer_partial`, `Wire.C111_counterexample`, `Wire.C111_distinct`, `Wire.C111_proof_partial`, `Wire.C111_worker`, `Wire.C112_call`, `Wire.C112_one`, `Wire.C112_shown`, `Wire.C112_shown_transfer`, `Wire.C112_transfer`, `Wire.C112_voted`, `Wire.C112_voted_worker_set`, `Wire.C112_votes`, `Wire.C112_votes_worker_set`, `Wire.C113_delivered`, `Wire.C113_honest`, `Wire.C113_proof_partial`, `Wire.C114_accepted`, `Wire.C114_again`, `Wire.C114_asked`, `Wire.C114_delivered`, `Wire.C114_proved`, `Wire.C114_requested`, `Wire.C114_signed`, `Wire.C114_verified`, `Wire.C115_accepted`, `Wire.C115_asked`, `Wire.C115_confirmed`, `Wire.C115_first`, `Wire.C115_handover`, `Wire.C115_transferred`, `Wire.C115_verified_partial`, `Wire.C115_votes_evm`, `Wire.C115_votes_sui`, `Wire.C116_bond`, `Wire.C116_declare`, `Wire.C116_joined`, `Wire.C116_member`, `Wire.C116_polled`, `Wire.C116_register`, `Wire.C117_paid`, `Wire.C117_signing`, `Wire.C117_voting`, `Wire.C118_active`, `Wire.C118_claim`, `Wire.C118_unbond`, `Wire.C119_freeze`, `Wire.C119_stopped`, `Wire.C119_unfreeze`, `Wire.C94_chain_name_stalls`, `Wire.C94_digest`, `Wire.C94_digest_stalls`, `Wire.C94_evm_handlers`, `Wire.C94_evm_messages`, `Wire.C94_evm_worker_set`, `Wire.C94_format`, `Wire.C94_multisig_fits`, `Wire.C94_plain`, `Wire.C94_signing`, `Wire.C94_signing_handler`, `Wire.C94_submit_signature`, `Wire.C94_sui_handlers`, `Wire.C94_sui_messages`, `Wire.C94_sui_worker_set`, `Wire.C94_vote`, `Wire.C95_delivered`, `Wire.C95_distinct`, `Wire.C95_history`, `Wire.C95_read`, `Wire.C95_sent`, `Wire.C95_typed`, `Wire.C95_written`, `Wire.C95_zero_counterexample`, `Wire.C96_answer`, `Wire.C96_call`, `Wire.C96_distinct`, `Wire.C96_proof`, `Wire.C97_message`, `Wire.C97_operators`, `Wire.C97_registered`, `Wire.C97_signed_verified`, `Wire.C97_worker_set`, `Wire.C98_hash_order`, `Wire.C98_load`, `Wire.C98_range`
