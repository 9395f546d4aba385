import Verif.Router.Types

/-!
# `contracts/service-registry/src/state.rs`: bonding states
-/

namespace Amp.Registry

/-- `state.rs:60-73` (`BondingState`).  Times are nanoseconds. -/
inductive BondingState
  | bonded (amount : Nat)
  | requestedUnbonding (amount : Nat)
  | unbonding (amount : Nat) (unbondedAt : Nat)
  | unbonded
  deriving DecidableEq, Repr

/-- `state.rs:125-130` (`AuthorizationState`) -/
inductive AuthState
  | notAuthorized
  | authorized
  deriving DecidableEq, Repr

/-- `state.rs:32-38` (`Worker`) -/
structure Worker where
  address : Addr
  bonding : BondingState
  auth : AuthState
  service : Str
  deriving DecidableEq, Repr

/-- `state.rs:40-58` (`TryFrom<Worker> for Participant`): only bonded workers, always weight one. -/
def Worker.toParticipant (w : Worker) : Option (Addr × Nat) :=
  match w.bonding with
  | .bonded _ => some (w.address, 1)
  | _ => none

end Amp.Registry
