import Verif.Ampd.Handlers

/-!
# The handlers of the daemon: configuration, labels, and where their progress is recorded

`ampd/src/handlers/config.rs`, `ampd/src/lib.rs:178-284`, `ampd/src/state.rs:50-73`.  The URLs of nodes are left out.
-/

namespace Amp.Ampd

open Amp.Encoding (Bytes)

/-- `evm/mod.rs:12-17`: how the name of a chain is read from the configuration -/
def Evm.Chain.read (s : Str) : Evm.Chain := if s = "Ethereum".toList then .ethereum else .other s

/-- `handlers/config.rs:19-41` (`Config`) -/
inductive HandlerCfg
  | evmMsg (contract : Addr) (chain : Evm.Chain)
  | evmWorkerSet (contract : Addr) (chain : Evm.Chain)
  | multisig (contract : Addr)
  | suiMsg (contract : Addr)
  | suiWorkerSet (contract : Addr)
  deriving DecidableEq, Repr

/-- the contract a handler listens to -/
def HandlerCfg.contract : HandlerCfg → Addr
  | .evmMsg c _ => c
  | .evmWorkerSet c _ => c
  | .multisig c => c
  | .suiMsg c => c
  | .suiWorkerSet c => c

/-- `Itertools::all_unique` -/
def allUnique {α : Type} [DecidableEq α] : List α → Bool
  | [] => true
  | a :: t => decide (a ∉ t) && allUnique t

/-- `handlers/config.rs:87-91` -/
def HandlerCfg.evmMsgName : HandlerCfg → Option Evm.Chain
  | .evmMsg _ n => some n
  | _ => none

/-- `handlers/config.rs:63-69` -/
def HandlerCfg.evmWorkerSetName : HandlerCfg → Option Evm.Chain
  | .evmWorkerSet _ n => some n
  | _ => none

/-- `handlers/config.rs:49` -/
def HandlerCfg.isMultisig : HandlerCfg → Bool
  | .multisig _ => true
  | _ => false

/-- `handlers/config.rs:110` -/
def HandlerCfg.isSuiMsg : HandlerCfg → Bool
  | .suiMsg _ => true
  | _ => false

/-- `handlers/config.rs:127` -/
def HandlerCfg.isSuiWorkerSet : HandlerCfg → Bool
  | .suiWorkerSet _ => true
  | _ => false

/-- which of the five checks failed -/
inductive CfgErr
  | evmMsg
  | evmWorkerSet
  | multisig
  | suiMsg
  | suiWorkerSet
  deriving DecidableEq, Repr

/-- `handlers/config.rs:136-149` (`deserialize_handler_configs`) and the five checks, `43-134` -/
def validate (cfgs : List HandlerCfg) : Except CfgErr Unit :=
  if allUnique (cfgs.filterMap HandlerCfg.evmMsgName) = false then .error .evmMsg
  else if allUnique (cfgs.filterMap HandlerCfg.evmWorkerSetName) = false then .error .evmWorkerSet
  else if (cfgs.filter HandlerCfg.isMultisig).length > 1 then .error .multisig
  else if (cfgs.filter HandlerCfg.isSuiMsg).length > 1 then .error .suiMsg
  else if (cfgs.filter HandlerCfg.isSuiWorkerSet).length > 1 then .error .suiWorkerSet
  else .ok ()

/-- `lib.rs:184-262`: the label of a handler -/
def HandlerCfg.label : HandlerCfg → Str
  | .evmMsg _ n => n.show ++ "-msg-verifier".toList
  | .evmWorkerSet _ n => n.show ++ "-worker-set-verifier".toList
  | .multisig _ => "multisig-signer".toList
  | .suiMsg _ => "sui-msg-verifier".toList
  | .suiWorkerSet _ => "sui-worker-set-verifier".toList

/-- `tokio_stream::StreamMap::insert`, called in `state.rs:64-73` (`register_event`): a receiver that is already
registered under the label is removed, and thereby closed.  Receivers are given by the position of their handler. -/
def registerEvent (m : List (Str × Nat)) (label : Str) (i : Nat) : List (Str × Nat) :=
  m.filter (fun e => e.1 ≠ label) ++ [(label, i)]

/-- `lib.rs:178-284` (`configure_handlers`, `configure_handler`): the receivers after the handlers from position `i`
on have been configured -/
def configure (m : List (Str × Nat)) (i : Nat) : List HandlerCfg → List (Str × Nat)
  | [] => m
  | c :: t => configure (registerEvent m c.label i) (i + 1) t

/-- whether the state updater still listens to the handler at position `i` -/
def listened (cfgs : List HandlerCfg) (i : Nat) : Bool := (configure [] 0 cfgs).any (fun e => e.2 = i)

/-- everything the handlers depend on that is not in the configuration; see `Handlers.lean` -/
structure Tools (V D J : Type) where
  L : Router.Lowering
  decodeLog : D → Option Evm.GatewayEvent
  P : Sui.Json J
  evmMessages : V → Option (Evm.PollStarted (List Evm.Message))
  evmWorkerSet : V → Option (Evm.PollStarted Evm.WorkerSet)
  suiMessages : V → Option (Sui.PollStarted (List Sui.Message))
  suiWorkerSet : V → Option (Sui.PollStarted Sui.WorkerSet)
  signing : V → Option Signing.SigningStarted

/-- what a handler sees of the outside while it handles an event -/
structure Surroundings (D J : Type) where
  evm : Evm.Env D
  sui : Sui.Env J
  signing : Signing.Env

/-- `lib.rs:184-262`: the handler made from a configuration, for the worker whose key the daemon holds -/
def HandlerCfg.handle {V D J : Type} (T : Tools V D J) (worker : Addr) (S : Surroundings D J) (c : HandlerCfg)
    (e : Event (Abci V)) : Outcome :=
  match c with
  | .evmMsg a n => Evm.handleMessages T.L T.decodeLog T.evmMessages ⟨worker, a, n⟩ S.evm e
  | .evmWorkerSet a n => Evm.handleWorkerSet T.decodeLog T.evmWorkerSet ⟨worker, a, n⟩ S.evm e
  | .multisig a => Signing.handle T.signing ⟨worker, a⟩ S.signing e
  | .suiMsg a => Sui.handleMessages T.L T.P T.suiMessages ⟨worker, a⟩ S.sui e
  | .suiWorkerSet a => Sui.handleWorkerSet T.P T.suiWorkerSet ⟨worker, a⟩ S.sui e

/-- the transactions that all handlers of the daemon, from position `i` on, make of one event -/
def sentUpon {V D J : Type} (T : Tools V D J) (worker : Addr) (S : Nat → Surroundings D J) (e : Event (Abci V)) :
    Nat → List HandlerCfg → List ExecTx
  | _, [] => []
  | i, c :: t => (c.handle T worker (S i) e).sent ++ sentUpon T worker S e (i + 1) t

end Amp.Ampd
