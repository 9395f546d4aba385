import Verif.Base.Prelude

/-!
# `ampd/src/broadcaster.rs`, `ampd/src/queue`: signing and submitting transactions

The node (simulation, submission, lookups) and the signer (`tofnd`) are outside the code: their replies are
inputs.  Protobuf messages are opaque (`M`).  `f64` arithmetic on gas is a parameter (`adjust`, `price`).
-/

namespace Amp.Ampd

/-- `broadcaster.rs:45-63` (`Config`): the parts that are used -/
structure BroadcastCfg where
  /-- `tx_fetch_max_retries : u32` -/
  retries : Nat
  /-- `(gas as f64 * gas_adjustment) as u64`, `broadcaster.rs:170` -/
  adjust : Nat → Nat
  /-- `(gas_adj as f64 * gas_price.amount).ceil() as u128`, `broadcaster.rs:174` -/
  price : Nat → Nat
  /-- `batch_gas_limit : u64` -/
  batchGasLimit : Nat

/-- `broadcaster.rs:25-43` (`Error`), plus panics; `queued_broadcaster.rs:17-25` wraps these -/
inductive SendErr
  | gasEstimation
  | txBuilding
  | broadcast
  | txConfirmation
  | execution (code : Nat)
  /-- integer overflow (the release profile has overflow checks, `/repo/Cargo.toml:40`) -/
  | panic
  deriving DecidableEq, Repr

/-- the node's reply to `GetTx`: an error, no transaction, or a transaction with its result code -/
inductive Lookup
  | unavailable
  | notFound
  | found (code : Nat)
  deriving DecidableEq, Repr

/-- `broadcaster.rs:258-262` (`ConfirmationResult`) -/
inductive Confirmation
  | success
  | retriable
  | critical (code : Nat)
  deriving DecidableEq, Repr

/-- `broadcaster.rs:242-256` (`evaluate_response`) -/
def evaluateResponse : Lookup → Confirmation
  | .unavailable => .retriable
  | .notFound => .retriable
  | .found code => if code = 0 then .success else .critical code

/-- `broadcaster.rs:204-236`: the loop of `confirm_tx`, with `n` iterations left, at iteration `i`.  Also
returns the number of lookups made so far.  Sleeping between lookups is not modelled. -/
def confirmLoop (lookups : Nat → Lookup) : Nat → Nat → Nat × Except SendErr Unit
  | 0, i => (i, .error .txConfirmation)
  | n + 1, i =>
    match evaluateResponse (lookups i) with
    | .success => (i + 1, .ok ())
    | .critical code => (i + 1, .error (.execution code))
    | .retriable => confirmLoop lookups n (i + 1)

/-- the bound of `u32` -/
def u32Max : Nat := 2 ^ 32 - 1

/-- `broadcaster.rs:201-239` (`confirm_tx`).  With the loop running at least once, falling out of it
means the last lookup was retriable, so the result is an error. -/
def confirmTx (cfg : BroadcastCfg) (lookups : Nat → Lookup) : Nat × Except SendErr Unit :=
  if cfg.retries + 1 > u32Max then (0, .error .panic)
  else confirmLoop lookups (cfg.retries + 1) 0

/-- What the outside replies during one call of `broadcast`. -/
structure Replies where
  /-- `simulate`: the gas used; `none` if the call fails or the reply has no `gas_info` -/
  gas : Option Nat
  /-- building and signing the transaction succeeds -/
  signed : Bool
  /-- `broadcast_tx` succeeds (the code in its reply is not looked at, `broadcaster.rs:134-143`) -/
  submitted : Bool
  /-- the replies to `get_tx` -/
  lookups : Nat → Lookup

/-- a signed transaction: messages, gas limit and fee, account sequence number.  Chain id, account number,
key and signature are the same function of these in every transaction and are left out. -/
structure Tx (M : Type) where
  msgs : List M
  gas : Nat
  fee : Nat
  sequence : Nat
  deriving DecidableEq, Repr

/-- `broadcaster.rs:87-98` (`BroadcastClient`): the sequence number; and, to observe it, the transactions
passed to `broadcast_tx`, oldest first. -/
structure Client (M : Type) where
  sequence : Nat
  sent : List (Tx M)

/-- `broadcaster.rs:155-180` (`estimate_fee`): gas limit and fee; `none` when the estimate fails -/
def estimateFee (cfg : BroadcastCfg) (gas : Option Nat) : Except SendErr (Nat × Nat) :=
  match gas with
  | none => .error .gasEstimation
  | some g => .ok (cfg.adjust g, cfg.price (cfg.adjust g))

/-- `broadcaster.rs:105-153` (`broadcast`) -/
def broadcast {M : Type} (cfg : BroadcastCfg) (c : Client M) (msgs : List M) (r : Replies) :
    Client M × Except SendErr Unit :=
  match estimateFee cfg r.gas with
  | .error e => (c, .error e)
  | .ok (gas, fee) =>
    if !r.signed then (c, .error .txBuilding)
    else
      let c := { c with sent := c.sent ++ [⟨msgs, gas, fee, c.sequence⟩] }
      if !r.submitted then (c, .error .broadcast)
      else
        match (confirmTx cfg r.lookups).2 with
        | .error e => (c, .error e)
        | .ok () =>
          if c.sequence + 1 > u64Max then (c, .error .panic)
          else ({ c with sequence := c.sequence + 1 }, .ok ())

/-- the client after a list of calls -/
def broadcasts {M : Type} (cfg : BroadcastCfg) (c : Client M) (calls : List (List M × Replies)) : Client M :=
  calls.foldl (fun c call => (broadcast cfg c call.1 call.2).1) c

/-! ## The queue -/

/-- `queue/msg_queue.rs:3-7` (`MsgQueue`) together with the broadcaster it feeds
(`queued_broadcaster.rs:107-112`) -/
structure Queue (M : Type) where
  msgs : List M
  gas : Nat
  client : Client M

/-- `queued_broadcaster.rs:86-105` (`new`), `msg_queue.rs:3` (`Default`) -/
def Queue.init {M : Type} (sequence : Nat) : Queue M := ⟨[], 0, ⟨sequence, []⟩⟩

/-- One turn of the `select!` of `queued_broadcaster.rs:117-143` in which something is received: a message
with the gas its simulation reports, a tick of the interval, or a forced broadcast; each with the
replies given if it leads to a broadcast. -/
inductive Input (M : Type)
  | msg (m : M) (gas : Option Nat) (r : Replies)
  | tick (r : Replies)
  | force (r : Replies)

/-- `queued_broadcaster.rs:158-176` (`broadcast_all`), `msg_queue.rs:15-21` (`pop_all`): the queue is
emptied first. -/
def broadcastAll {M : Type} (cfg : BroadcastCfg) (q : Queue M) (r : Replies) : Queue M × Except SendErr Unit :=
  match q.msgs with
  | [] => ({ q with msgs := [], gas := 0 }, .ok ())
  | _ :: _ =>
    let res := broadcast cfg q.client q.msgs r
    (⟨[], 0, res.1⟩, res.2)

/-- `msg_queue.rs:10-13` (`push`) -/
def push {M : Type} (q : Queue M) (m : M) (gas : Nat) : Queue M × Except SendErr Unit :=
  if q.gas + gas > u64Max then (q, .error .panic)
  else ({ q with msgs := q.msgs ++ [m], gas := q.gas + gas }, .ok ())

/-- `queued_broadcaster.rs:117-143`: one turn of the loop -/
def turn {M : Type} (cfg : BroadcastCfg) (q : Queue M) : Input M → Queue M × Except SendErr Unit
  | .msg m gas r =>
    match estimateFee cfg gas with
    | .error e => (q, .error e)
    | .ok (gasLimit, _) =>
      if gasLimit + q.gas > u64Max then (q, .error .panic)
      else if gasLimit + q.gas ≥ cfg.batchGasLimit then
        match broadcastAll cfg q r with
        | (q, .error e) => (q, .error e)
        | (q, .ok ()) => push q m gasLimit
      else push q m gasLimit
  | .tick r => broadcastAll cfg q r
  | .force r => broadcastAll cfg q r

/-- the loop of `queued_broadcaster.rs:116-144` on a list of inputs; it ends at the first error -/
def loop {M : Type} (cfg : BroadcastCfg) (q : Queue M) : List (Input M) → Queue M × Except SendErr Unit
  | [] => (q, .ok ())
  | i :: is =>
    match turn cfg q i with
    | (q, .error e) => (q, .error e)
    | (q, .ok ()) => loop cfg q is

/-- `queued_broadcaster.rs:107-149` (`run`): the loop until all senders are gone, then a last broadcast -/
def runQueue {M : Type} (cfg : BroadcastCfg) (sequence : Nat) (is : List (Input M)) (final : Replies) :
    Queue M × Except SendErr Unit :=
  match loop cfg (Queue.init sequence) is with
  | (q, .error e) => (q, .error e)
  | (q, .ok ()) => broadcastAll cfg q final

end Amp.Ampd
