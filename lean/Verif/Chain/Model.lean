import Verif.VV.Model
import Verif.Gateway.Model
import Verif.Router.Model
import Verif.Nexus.Model
import Verif.Registry.Model
import Verif.Rewards.Model
import Verif.Prover.System

/-!
# All contracts together

The contracts of the protocol on one chain: their queries read each other's storage and their messages are
delivered, within the transaction, to each other.  A transaction is atomic: if any call fails, nothing happens.

What is simplified: all contracts exist from the beginning (one that is not called does nothing), there are no
migrations, balances are left to `Bank.lean`, and contracts other than those modelled take part as senders of
transactions, but do not call back when they are called.  The aggregate verifier and the batching contract are
modelled separately (`Verif/Glue`).
-/

namespace Amp.Chain

open Amp.Router (ChainName CCId Message)

/-- hash functions, signature schemes and recovery -/
structure Params where
  H : VV.Hashes
  X : Encoding.Ext
  C : Multisig.Crypto

/-- the contracts and what they are instantiated with (`contracts/*/src/contract.rs: instantiate`); the prover's
service name and key type (`multisig-prover/src/state.rs:19, 25`) occur only in its queries -/
inductive Kind
  | verifier (cfg : VV.Config)
  | gateway (cfg : Gateway.Config)
  | router (cfg : Router.Config)
  | nexus (cfg : Nexus.Config)
  | registry (governance : Addr)
  | rewards (cfg : Rewards.Config) (p : Rewards.Params) (height : Nat)
  | multisig (cfg : Multisig.Config)
  | prover (cfg : Prover.Config) (service : Str) (keyType : Multisig.KeyType)

/-- the storage of a contract -/
inductive Store
  | verifier (s : VV.State)
  | gateway (s : Gateway.State)
  | router (s : Router.State)
  | nexus (s : Nexus.State)
  | registry (s : Registry.State)
  | rewards (s : Rewards.State)
  | multisig (s : Multisig.State)
  | prover (s : Prover.State) (service : Str) (keyType : Multisig.KeyType)

/-- the storage of every contract -/
abbrev World := KV Addr Store

/-- which contracts there are -/
abbrev Setup := Addr → Option Kind

/-- storage after instantiation -/
def Kind.init : Kind → Store
  | .verifier cfg => .verifier (VV.init cfg)
  | .gateway cfg => .gateway (Gateway.init cfg)
  | .router cfg => .router (Router.init cfg)
  | .nexus cfg => .nexus (Nexus.init cfg)
  | .registry g => .registry (Registry.init g)
  | .rewards cfg p h => .rewards (Rewards.init cfg p h)
  | .multisig cfg => .multisig (Multisig.init cfg)
  | .prover cfg sv kt => .prover (Prover.init cfg) sv kt

/-- the beginning -/
def genesis (setup : Setup) : World := fun a => (setup a).map Kind.init

/-- Messages.  `route` is `{"route_messages": [..]}`, which gateways, router and nexus gateway have in common
(`connection-router/src/contract/execute.rs:184-185`). -/
inductive Msg
  | verifier (m : VV.Msg)
  | gateway (m : Gateway.Msg)
  | router (m : Router.Msg)
  | nexus (m : Nexus.Msg)
  | registry (m : Registry.Msg)
  | rewards (m : Rewards.Msg)
  | multisig (m : Multisig.Msg)
  | prover (m : Prover.Msg)
  | route (ms : List Message)
  deriving DecidableEq

/-- a message as the gateway reads it -/
def Msg.toGateway : Msg → Option Gateway.Msg
  | .gateway m => some m
  | .route ms => some (.routeMessages ms)
  | _ => none

/-- a message as the router reads it -/
def Msg.toRouter : Msg → Option Router.Msg
  | .router m => some m
  | .route ms => some (.routeMessages ms)
  | _ => none

/-- a message as the nexus gateway reads it -/
def Msg.toNexus : Msg → Option Nexus.Msg
  | .nexus m => some m
  | .route ms => some (.routeMessages ms)
  | _ => none

/-- height and time (nanoseconds) of the block -/
structure Block where
  height : Nat
  time : Nat

/-- a message to be delivered -/
structure Pending where
  sender : Addr
  target : Addr
  funds : List Registry.Coin
  msg : Msg
  deriving DecidableEq

/-! ### Queries -/

/-- what an `Except` says, without the error -/
def answer {ε α : Type} : Except ε α → Option α
  | .ok a => some a
  | .error _ => none

/-- `gateway/src/contract/query.rs:22-35` (`VerifierApi::verify`): `IsVerified` of the voting verifier.  Other
contracts answer nothing that is understood (for the aggregate verifier see `C64_query_never_relays`). -/
def askVerifier (P : Params) (w : World) (a : Addr) (ms : List Message) : Option (List (CCId × Bool)) :=
  match w a with
  | some (.verifier s) => answer (VV.isVerified P.H s ms)
  | _ => none

/-- `voting-verifier/src/execute.rs:217-231`, `multisig-prover/src/execute.rs:104-112`: `GetActiveWorkers` -/
def askWorkers (w : World) (a : Addr) (service : Str) (chain : ChainName) : Option (List Registry.Worker) :=
  match w a with
  | some (.registry s) => answer (Registry.getActiveWorkers s service chain)
  | _ => none

/-- `multisig-prover/src/execute.rs:73-92`: `GetMessages` of the gateway -/
def askGateway (w : World) (a : Addr) (ids : List CCId) : Except Encoding.Err (List Message) :=
  match w a with
  | some (.gateway s) =>
    match Gateway.getMessages s ids with
    | .ok ms => .ok ms
    | .error _ => .error .std
  | _ => .error .std

/-- `multisig-prover/src/execute.rs:124-135`: `GetPublicKey` of the multisig contract -/
def askKey (w : World) (a : Addr) (kt : Multisig.KeyType) (worker : Addr) : Except Encoding.Err Multisig.PublicKey :=
  match w a with
  | some (.multisig s) =>
    match Multisig.getPublicKey s worker kt with
    | .ok k => .ok k
    | .error _ => .error .std
  | _ => .error .std

/-- `multisig-prover/src/execute.rs:238-245`: `IsWorkerSetVerified` of the voting verifier -/
def askSet (P : Params) (w : World) (a : Addr) (o : Std.Operators) : Except Encoding.Err Bool :=
  match w a with
  | some (.verifier s) =>
    match VV.isWorkerSetVerified P.H s o with
    | .ok b => .ok b
    | .error _ => .error .std
  | _ => .error .std

/-- what a call of the prover sees -/
def proverEnv (P : Params) (w : World) (b : Block) (cfg : Prover.Config) (service : Str)
    (kt : Multisig.KeyType) : Prover.Env where
  height := b.height
  gateway := askGateway w cfg.gateway
  activeWorkers :=
    match askWorkers w cfg.serviceRegistry service cfg.chainName with
    | some ws => .ok ws
    | none => .error .std
  publicKey := askKey w cfg.multisig kt
  verified := askSet P w cfg.votingVerifier

/-- `multisig-prover/src/query.rs:18-57`: `GetProof` of the prover, which asks the multisig contract -/
def askProof (P : Params) (w : World) (a : Addr) (sid : Nat) : Except Encoding.Err Prover.Proof :=
  match w a with
  | some (.prover s _ _) =>
    match w s.config.multisig with
    | some (.multisig m) => Prover.getProof P.X s (Multisig.getMultisig m) sid
    | _ => .error .std
  | _ => .error .std

/-! ### Calls -/

/-- a call that was executed, with its response; for the prover also the address of the multisig contract -/
inductive Act
  | verifier (c : VV.Call) (r : VV.Resp)
  | gateway (c : Gateway.Call) (r : Gateway.Resp)
  | router (c : Router.Call) (r : Router.Resp)
  | nexus (c : Nexus.Call) (r : Nexus.Resp)
  | registry (c : Registry.Call) (r : Registry.Resp)
  | rewards (c : Rewards.Call) (r : Rewards.Resp)
  | multisig (c : Multisig.Call) (r : Multisig.Resp)
  | prover (multisig : Addr) (c : Prover.Call) (r : Prover.Resp)

/-- the messages of a response: target and message -/
def Act.outs : Act → List (Addr × Msg)
  | .verifier _ r => r.msgs.map (fun x => (x.contract, .rewards (.recordParticipation x.eventId x.worker)))
  | .gateway _ r => r.out.map (fun
      | .verify a ms => (a, .verifier (.verifyMessages ms))
      | .route a ms => (a, .route ms))
  | .router _ r => r.dispatched.map (fun d => (d.contract, .route d.msgs))
  | .nexus _ r => r.toRouter.map (fun x => (x.1, .route x.2))
  | .registry _ _ => []
  | .rewards _ _ => []
  | .multisig _ r => r.records.map (fun x => (x.contract, .rewards (.recordParticipation x.eventId x.worker)))
  | .prover a _ r => [(a, .multisig r.out.toMultisig)]

/-- One call of one contract: its storage afterwards and what it did.  `reply` is what the multisig contract did
with the prover's message (only the prover uses it). -/
def call (P : Params) (b : Block) (w : World) (p : Pending) (reply : Option (Option Nat)) :
    Except Unit (Store × Act) :=
  match w p.target with
  | none => .error ()
  | some (.verifier s) =>
    match p.msg with
    | .verifier m =>
      let c : VV.Call := ⟨b.height, p.sender,
        askWorkers w s.config.serviceRegistry s.config.serviceName s.config.sourceChain, m⟩
      match VV.exec P.H s c with
      | .error _ => .error ()
      | .ok (s', r) => .ok (.verifier s', .verifier c r)
    | _ => .error ()
  | some (.gateway s) =>
    match p.msg.toGateway with
    | some m =>
      let c : Gateway.Call := ⟨p.sender, askVerifier P w s.config.verifier, m⟩
      match Gateway.exec s c with
      | .error _ => .error ()
      | .ok (s', r) => .ok (.gateway s', .gateway c r)
    | none => .error ()
  | some (.router s) =>
    match p.msg.toRouter with
    | some m =>
      match Router.exec s ⟨p.sender, m⟩ with
      | .error _ => .error ()
      | .ok (s', r) => .ok (.router s', .router ⟨p.sender, m⟩ r)
    | none => .error ()
  | some (.nexus s) =>
    match p.msg.toNexus with
    | some m =>
      match Nexus.exec s ⟨p.sender, m⟩ with
      | .error _ => .error ()
      | .ok (s', r) => .ok (.nexus s', .nexus ⟨p.sender, m⟩ r)
    | none => .error ()
  | some (.registry s) =>
    match p.msg with
    | .registry m =>
      match Registry.exec s ⟨p.sender, p.funds, b.time, m⟩ with
      | .error _ => .error ()
      | .ok (s', r) => .ok (.registry s', .registry ⟨p.sender, p.funds, b.time, m⟩ r)
    | _ => .error ()
  | some (.rewards s) =>
    match p.msg with
    | .rewards m =>
      match Rewards.exec s ⟨p.sender, p.funds, b.height, m⟩ with
      | .error _ => .error ()
      | .ok (s', r) => .ok (.rewards s', .rewards ⟨p.sender, p.funds, b.height, m⟩ r)
    | _ => .error ()
  | some (.multisig s) =>
    match p.msg with
    | .multisig m =>
      match Multisig.exec P.C (Prover.workerSetId P.X) s ⟨p.sender, b.height, m⟩ with
      | .error _ => .error ()
      | .ok (s', r) => .ok (.multisig s', .multisig ⟨p.sender, b.height, m⟩ r)
    | _ => .error ()
  | some (.prover s sv kt) =>
    match p.msg with
    | .prover m =>
      let c : Prover.Call := ⟨m, proverEnv P w b s.config sv kt, reply⟩
      match Prover.exec P.X s c with
      | .error _ => .error ()
      | .ok (s', r) => .ok (.prover s' sv kt, .prover s.config.multisig c r)
    | _ => .error ()

/-- a delivered message and what came of it -/
structure Entry where
  p : Pending
  act : Act

/-- the messages of a call, sent by the contract called -/
def Entry.sent (e : Entry) : List Pending := e.act.outs.map (fun o => ⟨e.p.target, o.1, [], o.2⟩)

/-- One message is delivered.  The prover's message to the multisig contract is a submessage with a reply
(`multisig-prover/src/contract.rs:73-84`), so both are executed here: `Prover.handle` tells the message,
the multisig contract executes it, and the prover goes on with its answer. -/
def deliver (P : Params) (b : Block) (w : World) (p : Pending) :
    Except Unit (World × List Entry × List Pending) :=
  match w p.target with
  | some (.prover s sv kt) =>
    match p.msg with
    | .prover m =>
      match Prover.handle P.X s (proverEnv P w b s.config sv kt) m with
      | .error _ => .error ()
      | .ok (_, out) =>
        let q : Pending := ⟨p.target, s.config.multisig, [], .multisig out.toMultisig⟩
        match call P b w q none with
        | .ok (ms, .multisig mc mr) =>
          match call P b w p (some mr.data) with
          | .error _ => .error ()
          | .ok (s', a) =>
            .ok ((w.set p.target s').set q.target ms, [⟨p, a⟩, ⟨q, .multisig mc mr⟩],
              Entry.sent ⟨q, .multisig mc mr⟩)
        | _ => .error ()
    | _ => .error ()
  | _ =>
    match call P b w p none with
    | .error _ => .error ()
    | .ok (s', a) => .ok (w.set p.target s', [⟨p, a⟩], Entry.sent ⟨p, a⟩)

/-- Messages are delivered one after the other; those that a call sends come before those that were waiting.
Each delivery costs gas.  `accepts` tells which addresses without a modelled contract take messages. -/
def run (P : Params) (b : Block) (accepts : Addr → Bool) :
    Nat → World → List Pending → Except Unit (World × List Entry)
  | _, w, [] => .ok (w, [])
  | 0, _, _ :: _ => .error ()
  | n + 1, w, p :: rest =>
    if (w p.target).isNone ∧ accepts p.target = true then run P b accepts n w rest
    else
      match deliver P b w p with
      | .error _ => .error ()
      | .ok (w', es, out) =>
        match run P b accepts n w' (out ++ rest) with
        | .error _ => .error ()
        | .ok (w'', es') => .ok (w'', es ++ es')

/-- A transaction: its sender, its messages (recipient, coins, message), the block and the gas limit. -/
structure Tx where
  sender : Addr
  msgs : List (Addr × List Registry.Coin × Msg)
  block : Block
  accepts : Addr → Bool
  gas : Nat

/-- contracts do not send transactions -/
def exec (P : Params) (w : World) (tx : Tx) : Except Unit (World × List Entry) :=
  if (w tx.sender).isSome then .error ()
  else run P tx.block tx.accepts tx.gas w (tx.msgs.map (fun m => ⟨tx.sender, m.1, m.2.1, m.2.2⟩))

end Amp.Chain
