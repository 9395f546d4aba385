import Verif.Wire.Instantiate
import Verif.Wire.TextChain
import Verif.Chain.Deploy

/-!
# Model: contracts are instantiated one after the other, with text

`Chain/Deploy.lean` again, with messages that instantiate and messages that are executed as text.
-/

namespace Amp.Wire

open Amp.Chain (Params World Entry)

variable (G : Texture)

/-- a transaction with messages as text, or an instantiation of code of a kind at a height -/
inductive TextStep
  | tx (t : TextTx)
  | found (a : Addr) (p : Party) (height : Nat) (text : Str)

/-- one step; a text that is no `InstantiateMsg` of the contract is an error -/
def stepText (P : Params) (w : World) : TextStep → Except Unit (World × List Entry)
  | .tx t => execText G P w t
  | .found a p height text =>
    match readOrder G p text with
    | none => .error ()
    | some o => if (w a).isSome then .error () else .ok (w.set a (o.kind height).init, [])

/-- the storage after a history -/
def textDeployedWorld (P : Params) (ts : List TextStep) : World := runCalls (stepText G P) Chain.nothing ts

/-- the successful calls of a history -/
def textDeployedLog (P : Params) (ts : List TextStep) : List Entry :=
  (outs (stepText G P) Chain.nothing ts).flatMap Prod.snd

end Amp.Wire
