import Verif.Chain.Structure

/-!
# Model: contracts are instantiated one after the other

`Chain/Model.lean` has all contracts from the start.  Here a history begins with none, and contracts are instantiated at any
time (`contracts/*/src/contract.rs: instantiate`), between transactions of users.  wasmd gives a new contract an address at
which there is none.

Simplified: an instantiation is a transaction of its own.  None of the contracts looks at who instantiates it, and none asks
the contracts that it is configured with.
-/

namespace Amp.Chain

/-- a transaction or an instantiation -/
inductive Step
  | tx (t : Tx)
  | found (a : Addr) (k : Kind)

/-- one step -/
def stepExec (P : Params) (w : World) : Step → Except Unit (World × List Entry)
  | .tx t => exec P w t
  | .found a k => if (w a).isSome then .error () else .ok (w.set a k.init, [])

/-- no contracts -/
def nothing : World := fun _ => none

/-- the storage after a history -/
def deployedWorld (P : Params) (steps : List Step) : World := runCalls (stepExec P) nothing steps

/-- the successful calls of a history -/
def deployedLog (P : Params) (steps : List Step) : List Entry := (outs (stepExec P) nothing steps).flatMap Prod.snd

end Amp.Chain
