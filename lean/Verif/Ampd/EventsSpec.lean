import Verif.Ampd.Events

/-! # What C66 and C67 talk about -/

namespace Amp.Ampd

variable {R A : Type}

/-- the events of a block in order: those of its beginning, of its transactions one after the other, and of
its end -/
def contents (b : BlockResults R) : List R :=
  b.beginBlock.getD [] ++ ((b.txs.getD []).flatten ++ b.endBlock.getD [])

/-- a block as subscribers should see it: begin marker, its events in order, end marker -/
def frame (W : World R A) (h : Nat) : List (Event A) :=
  .blockBegin h :: (((contents (W.chain h)).filterMap W.decode).map .abci ++ [.blockEnd h])

/-- `n` consecutive blocks from a height -/
def blocks (W : World R A) (start n : Nat) : List (Event A) := (List.range' start n).flatMap (frame W)

/-- every event of the block can be decoded -/
def Decodable (W : World R A) (h : Nat) : Prop := ∀ r ∈ contents (W.chain h), (W.decode r).isSome

/-- the latest heights the node reported to the publisher, in order -/
def reports (ts : List Tick) : List Nat := ts.filterMap Tick.latest

/-- the node never reports a lower height than before, nor one below the block before the start -/
def NoRegress (start : Nat) (ts : List Tick) : Prop :=
  (reports ts).Pairwise (· ≤ ·) ∧ ∀ r ∈ reports ts, start ≤ r + 1

/-- all latest heights reported in a run; the first query is made only without a state file -/
def runReports (f : StateFile) (r : Run) : List Nat :=
  (match startFrom f with
    | some _ => []
    | none => r.sub.first.toList) ++ reports r.sub.ticks

/-- the items a handler skips at the start of a run -/
def skipped (W : World R A) (f : StateFile) (r : Run) (h : Label × HandlerIn) : List (Item A) :=
  match f.get? h.1 with
  | none => []
  | some completed =>
    (stream h.2.recv (published W f r)).takeWhile (fun i => !beginsAt (completed + 1) i)

/-- The subscription of a handler does not overflow while it skips blocks it completed in an earlier run. -/
def NoLagWhileSkipping (W : World R A) (f : StateFile) (r : Run) (l : Label) : Prop :=
  ∀ h ∈ r.handlers, h.1 = l → Item.lagged ∉ skipped W f r h

/-- the heights whose end a handler has acknowledged in runs that wrote the state file, oldest first -/
def durableAcks (W : World R A) (l : Label) : StateFile → List Run → List Nat
  | _, [] => []
  | f, r :: rs => (if r.flushed then (handlerOut W f r l).2 else []) ++ durableAcks W l (fileAfter W f r) rs

/-- the latest heights reported over a list of runs -/
def allReports (W : World R A) : StateFile → List Run → List Nat
  | _, [] => []
  | f, r :: rs => runReports f r ++ allReports W (fileAfter W f r) rs

/-- a condition on every run of a history, each with the state file it starts from -/
def EachRun (W : World R A) (P : StateFile → Run → Prop) : StateFile → List Run → Prop
  | _, [] => True
  | f, r :: rs => P f r ∧ EachRun W P (fileAfter W f r) rs

end Amp.Ampd
