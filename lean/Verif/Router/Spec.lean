import Verif.Router.Model

/-!
# Specification vocabulary for the router
-/

namespace Amp.Router

/-- state after a history of calls -/
abbrev stateAfter (cfg : Config) (cs : List Call) : State := runCalls exec (init cfg) cs

/-- log of the successful calls of a history -/
abbrev history (cfg : Config) (cs : List Call) : List (Call × Resp) := outs exec (init cfg) cs

/-- where messages for chain `n` must go: to the gateway registered for `n`, or to the nexus gateway if
`n` is not registered -/
def recipient (cfg : Config) (s : State) (n : ChainName) : Addr :=
  match getChainInfo s n with
  | some e => e.gateway
  | none => cfg.nexusGateway

/-- the two directions that can be frozen -/
inductive Way
  | incoming
  | outgoing
  deriving DecidableEq, Repr

/-- which ways a direction argument names -/
def Direction.covers : Direction → Way → Bool
  | .none, _ => false
  | .incoming, .incoming => true
  | .incoming, .outgoing => false
  | .outgoing, .incoming => false
  | .outgoing, .outgoing => true
  | .bidirectional, _ => true

/-- what the chain info query shows about a way -/
def ChainEndpoint.frozenIn (e : ChainEndpoint) : Way → Bool
  | .incoming => e.incomingFrozen
  | .outgoing => e.outgoingFrozen

/-- the effect of one successful call on the frozen status of way `w` of chain `n` -/
def frozenStep (n : ChainName) (w : Way) (old : Bool) (c : Call) : Bool :=
  match c.msg with
  | .freezeChain n' d => if n' = n ∧ d.covers w then true else old
  | .unfreezeChain n' d => if n' = n ∧ d.covers w then false else old
  | _ => old

/-- whether way `w` of chain `n` is frozen after the successful calls of a log: the last freeze or
unfreeze of `n` naming `w` decides; initially nothing is frozen -/
def frozenAfter (n : ChainName) (w : Way) (log : List (Call × Resp)) : Bool :=
  log.foldl (fun b e => frozenStep n w b e.1) false

/-- the gateway of `n` according to a log: the last registration or upgrade of `n` decides -/
def gatewayAfter (n : ChainName) (log : List (Call × Resp)) : Option Addr :=
  log.foldl (fun g e =>
    match e.1.msg with
    | .registerChain n' gw => if n' = n then some gw else g
    | .upgradeGateway n' gw => if n' = n then some gw else g
    | _ => g) none

end Amp.Router
