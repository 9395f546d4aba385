import Verif.Ampd.Broadcaster

/-! # What C65 and C71 talk about -/

namespace Amp.Ampd

/-- the messages received, in order -/
def received {M : Type} : List (Input M) → List M
  | [] => []
  | .msg m _ _ :: is => m :: received is
  | _ :: is => received is

/-- the messages received up to the first whose gas cannot be estimated, each with its gas limit, in order -/
def receivedGas {M : Type} (cfg : BroadcastCfg) : List (Input M) → List (M × Nat)
  | [] => []
  | .msg m (some g) _ :: is => (m, cfg.adjust g) :: receivedGas cfg is
  | .msg _ none _ :: _ => []
  | _ :: is => receivedGas cfg is

/-- total gas of messages -/
def gasOf {M : Type} (l : List (M × Nat)) : Nat := (l.map Prod.snd).sum

/-- the result code a lookup reports, if it finds the transaction -/
def codeOf : Lookup → Option Nat
  | .found c => some c
  | _ => none

/-- the result code reported by the first of the allowed lookups (one, plus the retries) that finds the
transaction -/
def verdict (retries : Nat) (lookups : Nat → Lookup) : Option Nat :=
  ((List.range (retries + 1)).filterMap (fun i => codeOf (lookups i))).head?

/-- the transaction of this call gets confirmed -/
def accepted (cfg : BroadcastCfg) (r : Replies) : Bool :=
  r.gas.isSome && r.signed && r.submitted && (verdict cfg.retries r.lookups = some 0)

/-- the transaction of this call is given to the node -/
def submits (r : Replies) : Bool := r.gas.isSome && r.signed

end Amp.Ampd
