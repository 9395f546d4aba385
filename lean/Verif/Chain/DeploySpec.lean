import Verif.Chain.Deploy

/-!
# Specification for C105: when contracts are instantiated makes no difference
-/

namespace Amp.Chain

/-- the contracts of a history: at an address, the first that was instantiated there -/
def setupOf : List Step → Setup
  | [] => fun _ => none
  | .tx _ :: t => setupOf t
  | .found a k :: t => fun x => if x = a then some k else setupOf t x

/-- the transaction of a step -/
def Step.tx? : Step → Option Tx
  | .tx t => some t
  | .found _ _ => none

/-- the transactions that succeeded -/
def succeeded (P : Params) (steps : List Step) : List Tx :=
  (outs (stepExec P) nothing steps).filterMap (fun e => e.1.tx?)

/-- no contract has the address of a user or of a contract outside the model -/
def Apart (steps : List Step) : Prop :=
  ∀ t, .tx t ∈ steps → ∀ a, setupOf steps a ≠ none → t.sender ≠ a ∧ t.accepts a = false

/-- a call without the answers to queries that it could have made: who called, with what, and the response -/
def Act.blind : Act → Act
  | .verifier c r => .verifier { c with workers := none } r
  | .gateway c r => .gateway { c with verifier := fun _ => none } r
  | .prover m c r => .prover m { c with env := ⟨c.env.height, fun _ => .error .std, .error .std, fun _ => .error .std,
      fun _ => .error .std⟩ } r
  | act => act

/-- a delivered message and its response -/
def Entry.blind (e : Entry) : Entry := ⟨e.p, e.act.blind⟩

end Amp.Chain
