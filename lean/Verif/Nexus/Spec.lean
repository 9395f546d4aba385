import Verif.Nexus.Model

/-! # Specification vocabulary for the nexus gateway -/

namespace Amp.Nexus

open Amp.Router

/-- state after a history -/
abbrev stateAfter (cfg : Config) (cs : List Call) : State := runCalls exec (init cfg) cs

/-- log of successful calls -/
abbrev history (cfg : Config) (cs : List Call) : List (Call × Resp) := outs exec (init cfg) cs

/-- the router messages forwarded to nexus in a log, in order, with repetitions -/
def forwardedIn (log : List (Call × Resp)) : List Message := log.flatMap (fun e => e.2.forwarded)

/-- the ids forwarded in a log, in order, with repetitions -/
def forwardedIds (log : List (Call × Resp)) : List CCId := (forwardedIn log).map (·.ccId)

end Amp.Nexus
