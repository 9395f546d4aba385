import Verif.Wire.QueryLemmas

/-!
# Specification for C96: what contracts ask each other
-/

namespace Amp.Wire

open Amp.Router (ChainName Lowering CCId Message)
open Amp.Chain (Params Store answer)

/-- what one contract asks another -/
inductive Question
  | isVerified (ms : List Message)
  | isSetVerified (o : Std.Operators)
  | getMessages (ids : List CCId)
  | activeWorkers (service : Str) (chain : ChainName)
  | publicKey (worker : Addr) (kt : Multisig.KeyType)
  | getMultisig (id : Nat)

/-- as it is written -/
def Question.json (T : Texts) : Question → Json
  | .isVerified ms => askIsVerified ms
  | .isSetVerified o => askIsSetVerified o
  | .getMessages ids => askGetMessages ids
  | .activeWorkers sv c => askActiveWorkers sv c
  | .publicKey a kt => askPublicKey T a kt
  | .getMultisig id => askGetMultisig id

/-- its values are of their types -/
def Question.Typed (L : Lowering) : Question → Prop
  | .isVerified ms => ∀ m ∈ ms, MessageTyped L m
  | .isSetVerified o => OperatorsFit o
  | .getMessages ids => ∀ i ∈ ids, CCIdTyped L i
  | .activeWorkers _ c => c.Valid L
  | .publicKey _ _ => True
  | .getMultisig id => id ≤ u64Max

/-- what is answered -/
inductive Reply
  | statuses (l : List (CCId × Bool))
  | verified (b : Bool)
  | messages (ms : List Message)
  | workers (ws : List Registry.Worker)
  | key (k : Multisig.PublicKey)
  | session (m : Multisig.Multisig)

/-- as the contract that asked reads it -/
def Question.read (G : Texture) : Question → Json → Option Reply
  | .isVerified _ => fun j => (asStatuses G.L j).map .statuses
  | .isSetVerified _ => fun j => (asBool j).map .verified
  | .getMessages _ => fun j => (asVec (asMessage G.L) j).map .messages
  | .activeWorkers _ _ => fun j => (asVec (asWorker G.T) j).map .workers
  | .publicKey _ _ => fun j => (asPublicKey j).map .key
  | .getMultisig _ => fun j => (asSession G.T j).map .session

/-- what the contract asked has to say: the queries of the voting verifier, the gateway, the service registry and the multisig
contract.  A contract of another kind has nothing to say. -/
def Question.truth (P : Params) : Question → Store → Option Reply
  | .isVerified ms, .verifier s => (answer (VV.isVerified P.H s ms)).map .statuses
  | .isSetVerified o, .verifier s => (answer (VV.isWorkerSetVerified P.H s o)).map .verified
  | .getMessages ids, .gateway s => (answer (Gateway.getMessages s ids)).map .messages
  | .activeWorkers sv c, .registry s => (answer (Registry.getActiveWorkers s sv c)).map .workers
  | .publicKey a kt, .multisig s => (answer (Multisig.getPublicKey s a kt)).map .key
  | .getMultisig id, .multisig s => (Multisig.getMultisig s id).map .session
  | _, _ => none

end Amp.Wire
