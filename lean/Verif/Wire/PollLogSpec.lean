import Verif.Wire.LogSpec
import Verif.Wire.Msgs

/-!
# Somebody who reads the events of a voting verifier

As in `LogSpec.lean`, events are read as text: which messages and worker sets a poll is about, and the results of polls that
were ended.
-/

namespace Amp.Wire

open Amp.Std (Operators Vote)
open Amp.Ampd (lastWith)

/-- what an event of a verifier tells of a poll -/
inductive PollNotice
  | messages (id : Nat) (content : List VV.TxConfirmation)
  | workerSet (id : Nat) (content : Operators)
  | ended (id : Nat) (results : List (Option Vote))
  deriving DecidableEq

/-- a message of a poll, in an event -/
def confirmationIn (j : Json) : Option VV.TxConfirmation :=
  match structOf messageFields j with
  | some [some a, some b, some c, some d, some e, some f] =>
    match asStr a, asU64 b, asStr c, asStr d, asStr e, asHex f with
    | some tx, some i, some da, some dc, some sa, some h => some ⟨tx, i, da, dc, sa, h⟩
    | _, _, _, _, _, _ => none
  | _ => none

/-- the worker set of a poll, in an event -/
def workerSetIn : Json → Option Operators
  | .obj l => (lastWith "operators".toList l).bind asOperators
  | _ => none

/-- an event of a verifier -/
def pollNoticeOf (finite : Str → Bool) (k : Str) (l : List (Str × Str)) : Option PollNotice :=
  if k = "wasm-messages_poll_started".toList then do
    let i ← ((lastWith "poll_id".toList l).bind (fromStr finite)).bind (asUint u64Max)
    let ms ← ((lastWith "messages".toList l).bind (fromStr finite)).bind (asVec confirmationIn)
    some (.messages i ms)
  else if k = "wasm-worker_set_poll_started".toList then do
    let i ← ((lastWith "poll_id".toList l).bind (fromStr finite)).bind (asUint u64Max)
    let o ← ((lastWith "worker_set".toList l).bind (fromStr finite)).bind workerSetIn
    some (.workerSet i o)
  else if k = "wasm-poll_ended".toList then do
    let i ← ((lastWith "poll_id".toList l).bind (fromStr finite)).bind (asUint u64Max)
    let rs ← ((lastWith "results".toList l).bind (fromStr finite)).bind (asVec (fun j => asOption asVote (some j)))
    some (.ended i rs)
  else none

/-- what is known of the polls of a verifier: the last poll about each message, with its place in it; the last poll about each
worker set; the results of polls that were ended -/
structure PollsKnown where
  messages : KV VV.TxConfirmation (Nat × Nat)
  workerSets : KV Operators Nat
  results : KV Nat (List (Option Vote))

/-- before the first event -/
def PollsKnown.nothing : PollsKnown := ⟨KV.empty, KV.empty, KV.empty⟩

/-- the messages of a poll, from place `i` on -/
def notePlaces (id : Nat) : Nat → List VV.TxConfirmation → KV VV.TxConfirmation (Nat × Nat) →
    KV VV.TxConfirmation (Nat × Nat)
  | _, [], kv => kv
  | i, c :: t, kv => notePlaces id (i + 1) t (kv.set c (id, i))

/-- one event -/
def PollsKnown.hear (k : PollsKnown) : PollNotice → PollsKnown
  | .messages id cs => { k with messages := notePlaces id 0 cs k.messages }
  | .workerSet id o => { k with workerSets := k.workerSets.set o id }
  | .ended id rs => { k with results := k.results.set id rs }

/-- what is known of the polls of the verifier at `V` from the events of a chain -/
def watchVerifier (finite : Str → Bool) (T : Texts) (V : Addr) (es : List RawEvent) : PollsKnown :=
  (es.filterMap (fun e => (noticed T V e).bind (fun x => pollNoticeOf finite x.1 x.2))).foldl PollsKnown.hear .nothing

/-- the verifier at `V` was asked to verify this message -/
def AskedToVerify (l : List Chain.Entry) (V : Addr) (m : Router.Message) : Prop :=
  ∃ e ∈ l, e.p.target = V ∧ ∃ ms, e.p.msg = .verifier (.verifyMessages ms) ∧ m ∈ ms

/-- the verifier at `V` was asked to confirm this worker set -/
def AskedToConfirm (l : List Chain.Entry) (V : Addr) (o : Operators) : Prop :=
  ∃ e ∈ l, e.p.target = V ∧ ∃ mid, e.p.msg = .verifier (.verifyWorkerSet mid o)

end Amp.Wire
