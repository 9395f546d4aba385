import Verif.Ampd.Broadcaster
import Verif.Ampd.Handlers

/-!
# `ampd`: from the handlers through the queue to transactions

`ampd/src/lib.rs:186-285`: all handlers are given clients of the same queued broadcaster
(`queue/queued_broadcaster.rs:49-68`, an `mpsc` channel), which makes the transactions.
-/

namespace Amp.Ampd

/-- what a handler put into the channel when it handled an event: `client.broadcast(tx).await` fails if the
channel is closed (`queued_broadcaster.rs:57-67`), and so does the handler then -/
def Outcome.queued (o : Outcome) : List ExecTx :=
  match o.result with
  | .ok () => o.sent
  | .error _ => []

/-- One run of the daemon with everything that happens in it.  `outcomes l` lists what the handler with label
`l` did with the events it was given, one after the other; `inputs` is what the queued broadcaster received;
`final` are the replies to the broadcast after its loop, if the loop ends because all clients are gone and the
process is not killed before. -/
structure Process where
  run : Run
  outcomes : Label → List Outcome
  sequence : Nat
  inputs : List (Input ExecTx)
  final : Option Replies

/-- `queued_broadcaster.rs:107-149` (`run`) in this process -/
def Process.queue (cfg : BroadcastCfg) (p : Process) : Queue ExecTx × Except SendErr Unit :=
  match p.final with
  | none => loop cfg (Queue.init p.sequence) p.inputs
  | some r => runQueue cfg p.sequence p.inputs r

/-- the transactions the process gave to the node -/
def Process.transactions (cfg : BroadcastCfg) (p : Process) : List (Tx ExecTx) := (p.queue cfg).1.client.sent

/-- everything a handler put into the channel in the process, in order -/
def Process.answers (p : Process) (l : Label) : List ExecTx := (p.outcomes l).flatMap Outcome.queued

end Amp.Ampd
