import Verif.Chain.Structure
import Verif.Router.Spec
import Verif.Nexus.Spec
import Verif.VV.Spec

/-! # Vocabulary for statements about all contracts together -/

namespace Amp.Chain

open Amp.Router (ChainName CCId Message)

/-- the gateway registered for a chain at the router at `a` -/
def registeredGateway (w : World) (a : Addr) (n : ChainName) : Option Addr :=
  match w a with
  | some (.router s) => (Router.getChainInfo s n).map (·.gateway)
  | _ => none

/-- `m` was given to the nexus gateway at `N` by the nexus module -/
def InjectedByNexus (l : List Entry) (N : Addr) (nc : Nexus.Config) (m : Message) : Prop :=
  ∃ e ∈ l, e.p.target = N ∧ e.p.sender = nc.nexus ∧ ∃ ns, e.p.msg = .nexus (.routeMessagesFromNexus ns) ∧
    ∃ n ∈ ns, m = Nexus.toRouter n

/-- `m` was given to the router at `R` by the gateway registered there for its source chain, at a moment when the
verifier of that gateway reported it as verified, and the verifier does so now, in `w` -/
def VerifiedAtSource (P : Params) (setup : Setup) (l : List Entry) (w : World) (R : Addr) (m : Message) : Prop :=
  ∃ l₁ e l₂ ms g gc, l = l₁ ++ e :: l₂ ∧ e.p = ⟨g, R, e.p.funds, .route ms⟩ ∧ m ∈ ms ∧
    registeredGateway (worldOf P setup l₁) R m.ccId.chain = some g ∧ setup g = some (.gateway gc) ∧
    askVerifier P (worldOf P setup l₁) gc.verifier [m] = some [(m.ccId, true)] ∧
    askVerifier P w gc.verifier [m] = some [(m.ccId, true)]

/-- The router at `R` and its nexus gateway are the contracts of this repository, and so is every gateway that
was ever registered at the router, with a voting verifier. -/
structure Wired (setup : Setup) (l : List Entry) (R : Addr) (rc : Router.Config) (nc : Nexus.Config) : Prop where
  router : setup R = some (.router rc)
  nexus : setup rc.nexusGateway = some (.nexus nc)
  gateways : ∀ e ∈ l, e.p.target = R → ∀ n g,
    e.p.msg = .router (.registerChain n g) ∨ e.p.msg = .router (.upgradeGateway n g) →
    ∃ gc vc, setup g = some (.gateway gc) ∧ setup gc.verifier = some (.verifier vc) ∧ vc.Valid

end Amp.Chain
