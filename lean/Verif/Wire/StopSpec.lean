import Verif.Wire.CarrySpec
import Verif.Router.Spec

/-!
# Specification for C119: what a router was called with and answered
-/

namespace Amp.Wire

/-- the calls that the router at `R` executed, with its responses, in order -/
def handled (R : Addr) (l : List Chain.Entry) : List (Router.Call × Router.Resp) :=
  l.filterMap (fun e => if e.p.target = R then
    match e.act with
    | .router c r => some (c, r)
    | _ => none
    else none)

end Amp.Wire
