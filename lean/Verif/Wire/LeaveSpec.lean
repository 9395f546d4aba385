import Verif.Wire.CarrySpec
import Verif.Registry.Spec

/-!
# Specification for C118: what a registry was called with and answered
-/

namespace Amp.Wire

/-- the calls that the registry at `R` executed, with its responses, in order -/
def served (R : Addr) (l : List Chain.Entry) : List (Registry.Call × Registry.Resp) :=
  l.filterMap (fun e => if e.p.target = R then
    match e.act with
    | .registry c r => some (c, r)
    | _ => none
    else none)

end Amp.Wire
