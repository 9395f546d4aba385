import Verif.Std.Model

/-!
# Specification vocabulary for polls

What an observer can read off a poll, phrased without the running tallies.
-/

namespace Amp.Std

/-- the ballot recorded for an address, if any -/
def Poll.ballot (p : Poll) (a : Addr) : Option (List Vote) :=
  (p.participation.get? a).bind (·.vote)

/-- the addresses entitled to vote with their weights, in address order -/
def Poll.voters (p : Poll) : List (Addr × Nat) := p.participation.map (fun e => (e.1, e.2.weight))

/-- total weight of the entitled voters -/
def Poll.total (p : Poll) : Nat := OMap.sumBy (fun _ x => x.weight) p.participation

/-- does this participation record vote `v` for item `i`? -/
def votesFor (i : Nat) (v : Vote) (x : Participation) : Bool :=
  match x.vote with
  | none => false
  | some vs => vs[i]? = some v

/-- total weight of the voters whose recorded ballot has option `v` at item `i` -/
def Poll.votedWeight (p : Poll) (i : Nat) (v : Vote) : Nat :=
  OMap.sumBy (fun _ x => if votesFor i v x then x.weight else 0) p.participation

/-- the history of a poll -/
def Poll.run (p : Poll) (ops : List PollOp) : Poll := runCalls Poll.exec p ops

/-- Block heights never decrease along a history. -/
def heightsOk (ops : List PollOp) : Prop := (ops.map PollOp.height).Pairwise (· ≤ ·)

end Amp.Std
