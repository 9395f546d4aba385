import Verif.Wire.Stored

/-!
# Model: questions of users, as text

The queries that only users send: those of the router and the prover, and the rest of those of the service registry and the
multisig contract.  What contracts ask each other is in `Wire/Queries.lean`; users can ask that too.

Left out: `GetPoll` of the voting verifier, which is `todo!()` (`voting-verifier/src/contract.rs:57-59`) and gives no answer.
-/

namespace Amp.Wire

open Amp.Encoding (Bytes)
open Amp.Router (ChainName Lowering CCId Message)
open Amp.Chain (Params World Store answer)

/-! ### Answers -/

/-- `ProofStatus` (`multisig-prover/src/msg.rs:44-48`) -/
def jsonProofStatus : Prover.ProofStatus → Json
  | .pending => .str "pending".toList
  | .completed d => .obj [("completed".toList, .obj [("execute_data".toList, jsonHex d)])]

/-- the same, read -/
def asProofStatus : Json → Option Prover.ProofStatus := oneOf [
  onUnit "pending".toList .pending,
  onVariant "completed".toList (fun v => (one "execute_data".toList asHex v).map .completed)]

/-- `GetProofResponse` (`multisig-prover/src/msg.rs:50-56`) -/
def jsonProof (sid : Nat) (p : Prover.Proof) : Json :=
  .obj [("multisig_session_id".toList, jsonUint sid), ("message_ids".toList, .arr (p.messageIds.map jsonCCId)),
    ("data".toList, jsonData p.data), ("status".toList, jsonProofStatus p.status)]

/-- the same, read -/
def asProof (L : Lowering) (j : Json) : Option (Nat × Prover.Proof) :=
  match structOf ["multisig_session_id".toList, "message_ids".toList, "data".toList, "status".toList] j with
  | some [some a, some b, some c, some d] =>
    match asUint u64Max a, asVec (asCCId L) b, asData c, asProofStatus d with
    | some sid, some ids, some x, some st => some (sid, ⟨ids, x, st⟩)
    | _, _, _, _ => none
  | _ => none

/-! ### Questions -/

/-- `GetChainInfo` (`connection-router/src/msg.rs:57-60`) -/
def askChainInfo (n : ChainName) : Json := .obj [("get_chain_info".toList, .str n)]

/-- `GetProof` (`multisig-prover/src/msg.rs:37-38`) -/
def askProofJson (sid : Nat) : Json := .obj [("get_proof".toList, .obj [("multisig_session_id".toList, jsonUint sid)])]

/-- `GetWorkerSet` of the prover (`multisig-prover/src/msg.rs:40-41`) -/
def askProverSet : Json := .str "get_worker_set".toList

/-- `GetWorkerSet` of the multisig contract (`multisig/src/msg.rs:59-60`) -/
def askRegisteredSet (id : Str) : Json := .obj [("get_worker_set".toList, .obj [("worker_set_id".toList, .str id)])]

/-- `GetService` (`service-registry/src/msg.rs:62-63`) -/
def askService (name : Str) : Json := .obj [("get_service".toList, .obj [("service_name".toList, .str name)])]

/-- `GetWorker` (`service-registry/src/msg.rs:65-69`) -/
def askWorker (service worker : Str) : Json :=
  .obj [("get_worker".toList, .obj [("service_name".toList, .str service), ("worker".toList, .str worker)])]

variable (G : Texture) (P : Params)

/-- the entry point `query` of the router (`connection-router/src/contract.rs:102-112`, `contract/query.rs:9-14`) -/
def routerReplies (s : Router.State) : Json → Option Json :=
  onVariant "get_chain_info".toList (fun v => (asName G.L v).bind (fun n =>
    (Router.getChainInfo s n).map (jsonEndpoint G.T)))

/-- of the prover at `a` (`multisig-prover/src/contract.rs:86-94`); the multisig contract is asked by text -/
def proverReplies (w : World) (a : Addr) (s : Prover.State) : Json → Option Json := oneOf [
  onVariant "get_proof".toList (fun v => (one "multisig_session_id".toList (asUint u64Max) v).bind (fun sid =>
    (answer (askProofText G P w a sid)).map (jsonProof sid))),
  fun j => (onUnit "get_worker_set".toList () j).bind (fun _ =>
    (Prover.getWorkerSet s).map (jsonWorkerSetFull G.T))]

/-- of the multisig contract (`multisig/src/contract.rs:299-315`) -/
def multisigReplies (s : Multisig.State) : Json → Option Json := oneOf [
  multisigAnswers G s,
  onVariant "get_worker_set".toList (fun v => (one "worker_set_id".toList asStr v).bind (fun id =>
    (Multisig.getWorkerSet s id).map (jsonWorkerSetFull G.T)))]

/-- of the service registry (`service-registry/src/contract.rs:329-345`) -/
def registryReplies (s : Registry.State) : Json → Option Json := oneOf [
  registryAnswers G s,
  onVariant "get_worker".toList (fun v => (two "service_name".toList "worker".toList asStr asStr v).bind (fun p =>
    (answer (Registry.queryGetWorker G.T.parse s p.1 p.2)).map (jsonWorker G.T))),
  onVariant "get_service".toList (fun v => (one "service_name".toList asStr v).bind (fun n =>
    (Registry.findService s.services n).map (jsonService G.T G.u n)))]

/-- what the contract at `a` answers -/
def replies (w : World) (a : Addr) : Store → Json → Option Json
  | .router s => routerReplies G s
  | .prover s _ _ => proverReplies G P w a s
  | .multisig s => multisigReplies G s
  | .registry s => registryReplies G s
  | s => answers G P s

/-- a query of a user to the node: the text of the question is read by the contract at `a`, and the text of its answer is what
the user gets -/
def query (w : World) (a : Addr) (question : Str) : Option Str :=
  match w a with
  | none => none
  | some s => ((fromStr G.finite question).bind (replies G P w a s)).map Json.render

end Amp.Wire
