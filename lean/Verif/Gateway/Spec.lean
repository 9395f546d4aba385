import Verif.Gateway.Model

/-! # Specification vocabulary for the gateway -/

namespace Amp.Gateway

open Amp.Router

/-- state after a history -/
abbrev stateAfter (cfg : Config) (cs : List Call) : State := runCalls exec (init cfg) cs

/-- log of successful calls -/
abbrev history (cfg : Config) (cs : List Call) : List (Call × Resp) := outs exec (init cfg) cs

/-- The verifier reports message id `id` as verified in an answer: the last entry for `id` is `true`. -/
def ReportedVerified (ans : List (CCId × Bool)) (id : CCId) : Bool :=
  (ans.filter (fun e => e.1 = id)).getLast? = some (id, true)

/-- the messages delivered by the router in a log, in order -/
def deliveredByRouter (cfg : Config) (log : List (Call × Resp)) : List Message :=
  log.flatMap (fun e =>
    match e.1.msg with
    | .routeMessages ms => if e.1.sender = cfg.router then ms else []
    | .verifyMessages _ => [])

/-- the last message delivered by the router with a given id -/
def lastDelivered (cfg : Config) (log : List (Call × Resp)) (id : CCId) : Option Message :=
  ((deliveredByRouter cfg log).filter (fun m => m.ccId = id)).getLast?

end Amp.Gateway
