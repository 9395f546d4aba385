import Verif.Chain.Structure

/-!
# What somebody knows who only watches the events of the router

`connection-router/src/events.rs` tells of registrations, of gateways replaced and of messages routed.  `Seen` is what
can be gathered from them: the gateway of every chain, and for every gateway the messages sent there.
-/

namespace Amp.Chain

open Amp.Router (ChainName CCId Message)

/-- gateways of chains, and messages by recipient and id -/
structure Seen where
  gateways : KV ChainName Addr
  outbox : Addr → KV CCId Message

/-- before the first event -/
def Seen.nothing : Seen := ⟨KV.empty, fun _ => KV.empty⟩

/-- One event.  A message goes to the gateway of its destination chain, and to the nexus gateway if the chain has
none; a later message takes the place of an earlier one of the same id. -/
def Seen.see (nexus : Addr) (k : Seen) : Router.Event → Seen
  | .chainRegistered n g => { k with gateways := k.gateways.set n g }
  | .gatewayUpgraded n g => { k with gateways := k.gateways.set n g }
  | .chainFrozen _ => k
  | .messageRouted m =>
    let g := (k.gateways m.destinationChain).getD nexus
    { k with outbox := fun a => if a = g then (k.outbox a).set m.ccId m else k.outbox a }

/-- all events, in order -/
def Seen.all (nexus : Addr) (es : List Router.Event) : Seen := es.foldl (Seen.see nexus) .nothing

/-- the events of a call of a router -/
def Act.routerEvents : Act → List Router.Event
  | .router _ r => r.events
  | _ => []

/-- the events of the router at an address -/
def routerEvents (R : Addr) (l : List Entry) : List Router.Event := (actsAt R l).flatMap Act.routerEvents

/-- The contract at an address, if there is one, is no router; and if it is a gateway, it belongs to the router `R`. -/
def Leaf (setup : Setup) (R g : Addr) : Prop :=
  (∀ cfg, setup g ≠ some (.router cfg)) ∧ ∀ cfg, setup g = some (.gateway cfg) → cfg.router = R

/-- what is registered with the router `R` is no router, and no gateway of another router -/
def Closed (setup : Setup) (R : Addr) (l : List Entry) : Prop :=
  ∀ e ∈ l, e.p.target = R → ∀ n g,
    (e.p.msg = .router (.registerChain n g) ∨ e.p.msg = .router (.upgradeGateway n g)) → Leaf setup R g

end Amp.Chain
