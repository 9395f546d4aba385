import Verif.Base.Prelude
import Mathlib.Data.List.Basic

/-!
# `ampd`: publishing block events and handing them to handlers

`ampd/src/event_sub.rs`, `event_processor.rs`, `handlers/chain.rs`, `handlers/end_block.rs`, `state.rs`,
`commands/daemon.rs` and the parts of `lib.rs` that connect them.

The node's replies, the moments of cancellation, the failures of channels and handlers and the points at
which the process stops are inputs, so a statement about all inputs is one about all schedules.  Block
heights are natural numbers (`tendermint::block::Height` is bounded by `i64::MAX`).
-/

namespace Amp.Ampd

/-- `packages/events/src/event.rs:12-20` (`Event`); `A` is the decoded ABCI event -/
inductive Event (A : Type)
  | blockBegin (h : Nat)
  | blockEnd (h : Nat)
  | abci (a : A)
  deriving DecidableEq, Repr

/-- `tendermint_rpc::endpoint::block_results::Response`: the parts that are used -/
structure BlockResults (R : Type) where
  beginBlock : Option (List R)
  txs : Option (List (List R))
  endBlock : Option (List R)

/-- The chain the node serves: what a block contains does not change.  `decode` is
`TryFrom<abci::Event> for Event`, `event.rs:32-51`. -/
structure World (R A : Type) where
  chain : Nat → BlockResults R
  decode : R → Option A

/-- `iter().flatten()` on an optional list -/
def flatOpt {α : Type} : Option (List α) → List α
  | none => []
  | some l => l

/-- `event_sub.rs:142-153`: the events of a block in order -/
def rawEvents {R : Type} (b : BlockResults R) : List R :=
  flatOpt b.beginBlock ++ (flatOpt b.txs).flatten ++ flatOpt b.endBlock

/-- decode all, or fail (`collect::<Result<Vec<_>, _>>()`) -/
def decodeAll {R A : Type} (f : R → Option A) : List R → Option (List A)
  | [] => some []
  | r :: rs =>
    match f r with
    | none => none
    | some a =>
      match decodeAll f rs with
      | none => none
      | some as => some (a :: as)

/-- replies while one block is processed: whether its results can be fetched, and how many of its events
can be sent before sending fails for lack of receivers (`none`: all) -/
structure BlockReply where
  available : Bool
  sends : Option Nat

/-- `event_sub.rs:114-131` (`process_block`): the events sent, and whether it succeeded -/
def processBlock {R A : Type} (W : World R A) (h : Nat) (rep : BlockReply) : List (Event A) × Bool :=
  if !rep.available then ([], false)
  else
    match decodeAll W.decode (rawEvents (W.chain h)) with
    | none => ([], false)
    | some evs =>
      let all := .blockBegin h :: (evs.map .abci ++ [.blockEnd h])
      match rep.sends with
      | none => (all, true)
      | some k => if k < all.length then (all.take k, false) else (all, true)

/-- one turn of the loop of `event_sub.rs:67-78` that polls the node: the latest height it reports (`none`:
the call fails), the replies for each block, and whether the token is found cancelled after a block -/
structure Tick where
  latest : Option Nat
  block : Nat → BlockReply
  cancelled : Nat → Bool

/-- `event_sub.rs:99-111`: the `while` loop, `n` being the number of blocks left.  The result is the height
returned, or `none` for an error. -/
def processBlocks {R A : Type} (W : World R A) (t : Tick) (upTo : Nat) : Nat → Nat →
    List (Event A) × Option Nat
  | 0, _ => ([], some upTo)
  | n + 1, h =>
    match processBlock W h (t.block h) with
    | (es, false) => (es, none)
    | (es, true) =>
      if t.cancelled h then (es, some h)
      else
        let r := processBlocks W t upTo n (h + 1)
        (es ++ r.1, r.2)

/-- `event_sub.rs:92-112` (`process_blocks_from`) -/
def processBlocksFrom {R A : Type} (W : World R A) (t : Tick) (start : Nat) :
    List (Event A) × Option Nat :=
  match t.latest with
  | none => ([], none)
  | some upTo => processBlocks W t upTo (upTo + 1 - start) start

/-- the loop of `event_sub.rs:67-78` from a current height: the events sent, and the height it is to
continue with, or `none` if it ended with an error.  Since `select!` picks any ready branch, ticks can
also happen after cancellation; leaving the loop is the end of the list. -/
def subLoop {R A : Type} (W : World R A) : Nat → List Tick → List (Event A) × Option Nat
  | curr, [] => ([], some curr)
  | curr, t :: ts =>
    match processBlocksFrom W t curr with
    | (es, none) => (es, none)
    | (es, some h) =>
      let r := subLoop W (h + 1) ts
      (es ++ r.1, r.2)

/-- what happens to the publisher in one run: the reply to the first query of the latest height (only made
without a start height), and the ticks -/
structure SubIn where
  first : Option Nat
  ticks : List Tick

/-- the height the publisher starts at, `event_sub.rs:61-64` -/
def startHeight (startFrom : Option Nat) (i : SubIn) : Option Nat :=
  match startFrom with
  | some s => some s
  | none => i.first

/-- `event_sub.rs:60-79` (`run`) -/
def runSub {R A : Type} (W : World R A) (startFrom : Option Nat) (i : SubIn) :
    List (Event A) × Option Nat :=
  match startHeight startFrom i with
  | none => ([], none)
  | some s => subLoop W s i.ticks

/-! ## Handlers -/

/-- an item of a subscription (`event_sub.rs:56-58`): an event, or the error that the subscriber was too
slow and events have been dropped -/
inductive Item (A : Type)
  | ok (e : Event A)
  | lagged
  deriving DecidableEq, Repr

/-- how a subscription is served: the next event is delivered, or `n` events are dropped and an error is
delivered (`tokio::sync::broadcast`) -/
inductive Recv
  | deliver
  | lag (n : Nat)

/-- the items of a subscription to the published events -/
def stream {A : Type} : List Recv → List (Event A) → List (Item A)
  | [], _ => []
  | .deliver :: _, [] => []
  | .deliver :: rs, e :: es => .ok e :: stream rs es
  | .lag n :: rs, es => .lagged :: stream rs (es.drop n)

/-- `matches!(event, Ok(Event::BlockBegin(h)) if *h >= height)` -/
def beginsAt {A : Type} (height : Nat) : Item A → Bool
  | .ok (.blockBegin h) => height ≤ h
  | _ => false

/-- `event_sub.rs:157-162` (`skip_to_block`) -/
def skipToBlock {A : Type} (height : Nat) (items : List (Item A)) : List (Item A) :=
  items.dropWhile (fun i => !beginsAt height i)

/-- what happens when an event is handed to a handler: whether the handler succeeds, whether the height can
be sent to the state updater, and whether the token is then found cancelled -/
structure HandleReply where
  handled : Bool
  notified : Bool
  cancelled : Bool

/-- `event_processor.rs:40-65` (`consume_events`) for a handler with block height notifier
(`handlers/chain.rs:43-54`, `handlers/end_block.rs:26-43`): the events handed to the handler, and the
heights sent to the state updater.  When the replies run out, the process has stopped there. -/
def consume {A : Type} : List (Item A) → List HandleReply → List (Event A) × List Nat
  | [], _ => ([], [])
  | _ :: _, [] => ([], [])
  | .lagged :: _, _ :: _ => ([], [])
  | .ok e :: items, r :: rs =>
    if !r.handled then ([e], [])
    else
      match e with
      | .blockEnd h =>
        if !r.notified then ([e], [])
        else if r.cancelled then ([e], [h])
        else
          let x := consume items rs
          (e :: x.1, h :: x.2)
      | e =>
        let x := consume items rs
        (e :: x.1, x.2)

/-! ## The daemon -/

/-- handler labels (`lib.rs:186-263`) -/
abbrev Label := Nat

/-- `state.rs:24-29` (`State`): the completed height of each handler.  The public key is left out. -/
abbrev StateFile := OMap Label Nat

/-- `state.rs:32-34` (`min_handler_block_height`) -/
def minHeight (f : StateFile) : Option Nat := (f.map Prod.snd).min?

/-- `lib.rs:161-164`: the start height of the publisher -/
def startFrom (f : StateFile) : Option Nat := (minHeight f).map (· + 1)

/-- what happens to one handler in one run -/
structure HandlerIn where
  recv : List Recv
  replies : List HandleReply

/-- One run of the daemon: the publisher, the configured handlers, and whether the state was written at the
end (`commands/daemon.rs:12`); it is not if the process is killed or the write fails.  (A write that
leaves a corrupted file is not modelled.) -/
structure Run where
  sub : SubIn
  handlers : List (Label × HandlerIn)
  flushed : Bool

/-- `lib.rs:273-284` and `consume_events`: what a handler is given and what it acknowledges -/
def runHandler {A : Type} (f : StateFile) (published : List (Event A)) (h : Label × HandlerIn) :
    List (Event A) × List Nat :=
  let items := stream h.2.recv published
  match f.get? h.1 with
  | none => consume items h.2.replies
  | some completed => consume (skipToBlock (completed + 1) items) h.2.replies

/-- `state.rs:75-82` (`StateUpdater::run`) for the heights of one handler -/
def recordAll (f : StateFile) (l : Label) (acks : List Nat) : StateFile :=
  acks.foldl (fun f h => f.set l h) f

/-- `state.rs:75-82`: all handlers.  Heights of different handlers arrive interleaved in any way; as they are
stored under different labels the order between handlers makes no difference. -/
def recordHandlers {A : Type} (f0 : StateFile) (published : List (Event A)) :
    List (Label × HandlerIn) → StateFile → StateFile
  | [], f => f
  | h :: hs, f => recordHandlers f0 published hs (recordAll f h.1 (runHandler f0 published h).2)

/-- the events published in a run -/
def published {R A : Type} (W : World R A) (f : StateFile) (r : Run) : List (Event A) :=
  (runSub W (startFrom f) r.sub).1

/-- `commands/daemon.rs:9-27`, `lib.rs:287-347`: the state file after a run -/
def fileAfter {R A : Type} (W : World R A) (f : StateFile) (r : Run) : StateFile :=
  if r.flushed then recordHandlers f (published W f r) r.handlers f else f

/-- what a handler is given and acknowledges in a run (nothing if it is not configured) -/
def handlerOut {R A : Type} (W : World R A) (f : StateFile) (r : Run) (l : Label) :
    List (Event A) × List Nat :=
  match r.handlers.find? (fun h => h.1 = l) with
  | none => ([], [])
  | some h => runHandler f (published W f r) h

/-- the state file after a list of runs, starting without a file (`state.rs:91-101`, `load`) -/
def fileAfterAll {R A : Type} (W : World R A) (rs : List Run) : StateFile :=
  rs.foldl (fileAfter W) []

end Amp.Ampd
