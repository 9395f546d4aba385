/-!
# Model of the tasks of the daemon and of the task that waits for them

`ampd/src/lib.rs` (`App::run`), `ampd/src/event_processor.rs` (`EventProcessor::run`), `ampd/src/block_height_monitor.rs`,
`ampd/src/commands/daemon.rs`, `ampd/src/main.rs`.

The daemon runs five tasks, and one more per handler.  What the tasks do is modelled elsewhere (`Events.lean`,
`Broadcaster.lean`, `Handlers.lean`); here a task is either running or has ended, and the model says under which
circumstances it can end in which way.  The order in which tasks end, and in which the main task gets to see it, is free:
every schedule is a list of actions.
-/

namespace Amp.Ampd

/-- how a task ends: with `Ok`, with an error, or by a panic (a `JoinError`) -/
inductive End
  | ok
  | err
  | panic
deriving DecidableEq, Repr

/-- the tasks that `App::run` waits for (`lib.rs:313-329`) -/
inductive Job
  | eventSub
  | processor
  | broadcaster
  | monitor
  | updater
deriving DecidableEq, Repr

/-- `lib.rs:350-372` (`Error`), as far as it arises while the daemon is running -/
inductive DaemonError
  | eventSub
  | eventProcessor
  | broadcaster
  | blockHeightMonitor
  | task
deriving DecidableEq, Repr

/-- what `App::run` is doing: waiting for the first task to end (`lib.rs:331`), waiting for the others with the result
determined (`lib.rs:340`), or returned (`lib.rs:346`) -/
inductive Phase
  | waiting
  | draining (r : Except DaemonError Unit)
  | exited (r : Except DaemonError Unit)

/-- the tasks that have ended, those among them that `join_next` has returned, and whether the token is cancelled -/
structure Tasks where
  handlers : List (Option End)
  ended : Job → Option End
  joined : Job → Bool
  cancelled : Bool
  phase : Phase

/-- `lib.rs:287-329`: all tasks are running -/
def Tasks.init (n : Nat) : Tasks := ⟨List.replicate n none, fun _ => none, fun _ => false, false, .waiting⟩

/-- all handler tasks have ended -/
def Tasks.handlersEnded (s : Tasks) : Bool := s.handlers.all Option.isSome

/-- A handler task (`event_processor.rs:40-65`, `consume_events`) can fail or panic at any time.  It ends without an error
when the token is cancelled (`:56-58`), or when the stream of events is closed, i.e. after the event subscription, which
holds the only sender (`event_sub.rs:28`), has ended. -/
def Tasks.handlerMayEnd (s : Tasks) : End → Bool
  | .ok => s.cancelled || (s.ended .eventSub).isSome
  | .err => true
  | .panic => true

/-- Whether a task can end in a certain way.
`eventSub` (`event_sub.rs:60-79`) and `monitor` (`block_height_monitor.rs:49-70`) end without an error only when the token
is cancelled, and can fail at any time.
`processor` (`event_processor.rs:91-100`): `try_join_all` over the handles of the handler tasks returns as soon as one of
them has panicked, and otherwise when all have ended; only then are their results looked at.
`broadcaster` (`queued_broadcaster.rs:107-149`) ends its loop when all handlers, which hold the senders of its channel,
have ended, and can fail at any time.
`updater` (`state.rs:75-82`) ends when all handlers, which hold the senders of the heights, have ended; its loop does
nothing that can fail. -/
def Tasks.mayEnd (s : Tasks) : Job → End → Bool
  | .eventSub, .ok => s.cancelled
  | .eventSub, _ => true
  | .monitor, .ok => s.cancelled
  | .monitor, _ => true
  | .processor, .ok => s.handlers.all (· == some .ok)
  | .processor, .err => s.handlers.contains (some .panic) || (s.handlersEnded && s.handlers.contains (some .err))
  | .processor, .panic => false
  | .broadcaster, .ok => s.handlersEnded
  | .broadcaster, _ => true
  | .updater, .ok => s.handlersEnded
  | .updater, _ => false

/-- `lib.rs:315-329`: the error a task's error is turned into (the updater returns `Ok`, `:328`) -/
def Job.error : Job → DaemonError
  | .eventSub => .eventSub
  | .processor => .eventProcessor
  | .broadcaster => .broadcaster
  | .monitor => .blockHeightMonitor
  | .updater => .task

/-- `lib.rs:334`: the result of the task, or `Error::Task` if it panicked -/
def Job.result (t : Job) : End → Except DaemonError Unit
  | .ok => .ok ()
  | .err => .error t.error
  | .panic => .error .task

/-- what can happen next -/
inductive Action
  /-- `lib.rs:298-311`: a signal arrives -/
  | signal
  /-- handler task `i` ends -/
  | handlerEnds (i : Nat) (e : End)
  /-- a task ends -/
  | ends (t : Job) (e : End)
  /-- `join_next` returns the task to `App::run` -/
  | join (t : Job)
  /-- `join_next` returns `None` -/
  | exit
deriving DecidableEq, Repr

/-- all tasks have been joined -/
def Tasks.allJoined (s : Tasks) : Bool :=
  s.joined .eventSub && s.joined .processor && s.joined .broadcaster && s.joined .monitor && s.joined .updater

/-- one action; `none` if it cannot happen -/
def Tasks.step (s : Tasks) : Action → Option Tasks
  | .signal =>
    match s.phase with
    | .exited _ => none
    | _ => some { s with cancelled := true }
  | .handlerEnds i e =>
    if s.handlers[i]? = some none ∧ s.handlerMayEnd e then some { s with handlers := s.handlers.set i (some e) } else none
  | .ends t e =>
    if s.ended t = none ∧ s.mayEnd t e then
      some { s with ended := fun t' => if t' = t then some e else s.ended t' }
    else none
  | .join t =>
    match s.ended t, s.joined t with
    | some e, false =>
      let joined := fun t' => if t' = t then true else s.joined t'
      match s.phase with
      -- `lib.rs:331-338`
      | .waiting =>
        if s.cancelled then some { s with joined := joined, phase := .draining (.ok ()) }
        else some { s with joined := joined, cancelled := true, phase := .draining (t.result e) }
      -- `lib.rs:340`
      | .draining r => some { s with joined := joined, phase := .draining r }
      | .exited _ => none
    | _, _ => none
  | .exit =>
    match s.phase with
    | .draining r => if s.allJoined then some { s with phase := .exited r } else none
    | _ => none

/-- a schedule -/
def Tasks.run (s : Tasks) : List Action → Option Tasks
  | [] => some s
  | a :: as =>
    match s.step a with
    | none => none
    | some s' => s'.run as

/-- `daemon.rs:9-27`, `main.rs:72-89`: the exit status of the process; `flushed` says whether the state could be written -/
def exitSuccess (r : Except DaemonError Unit) (flushed : Bool) : Bool :=
  match r, flushed with
  | .ok _, true => true
  | _, _ => false

end Amp.Ampd
