import Verif.Wire.Users
import Verif.Wire.QuerySpec
import Verif.Wire.StoredSpec

/-!
# Specification for C111: what users ask contracts
-/

namespace Amp.Wire

open Amp.Router (ChainName Lowering CCId Message)
open Amp.Chain (Params World Store answer)

/-- what a user asks a contract: what another contract could ask, the chain registered under a name, the proof of a signing
session, the worker set of a prover, a worker set registered for signing, a service, a worker of a service -/
inductive UserQuestion
  | contract (q : Question)
  | chainInfo (n : ChainName)
  | proof (sid : Nat)
  | currentSet
  | registeredSet (id : Str)
  | service (name : Str)
  | worker (service worker : Str)

/-- as it is written -/
def UserQuestion.json (T : Texts) : UserQuestion → Json
  | .contract q => q.json T
  | .chainInfo n => askChainInfo n
  | .proof sid => askProofJson sid
  | .currentSet => askProverSet
  | .registeredSet id => askRegisteredSet id
  | .service n => askService n
  | .worker n a => askWorker n a

/-- its values are of their types -/
def UserQuestion.Typed (L : Lowering) : UserQuestion → Prop
  | .contract q => q.Typed L
  | .chainInfo n => n.Valid L
  | .proof sid => sid ≤ u64Max
  | _ => True

/-- what is answered -/
inductive UserReply
  | contract (r : Reply)
  | endpoint (e : Router.ChainEndpoint)
  | proof (sid : Nat) (p : Prover.Proof)
  | set (ws : Multisig.WorkerSet)
  | service (name : Str) (sv : Registry.Service)
  | worker (w : Registry.Worker)

/-- as the user reads it, by the type that the contract's interface gives -/
def UserQuestion.read (G : Texture) : UserQuestion → Json → Option UserReply
  | .contract q => fun j => (q.read G j).map .contract
  | .chainInfo _ => fun j => (asEndpoint G.L G.T j).map .endpoint
  | .proof _ => fun j => (asProof G.L j).map (fun p => .proof p.1 p.2)
  | .currentSet => fun j => (asWorkerSet G.T j).map .set
  | .registeredSet _ => fun j => (asWorkerSet G.T j).map .set
  | .service _ => fun j => (asStoredService G.T j).map (fun p => .service p.1 p.2)
  | .worker _ _ => fun j => (asWorker G.T j).map .worker

/-- the text of an answer, read -/
def UserQuestion.readText (G : Texture) (q : UserQuestion) (t : Str) : Option UserReply := (fromStr G.finite t).bind (q.read G)

/-- what is to be answered: what the contract at `a` stores, and for a proof what the prover at `a` makes of it; other contracts
than the one asked for have nothing to say -/
def UserQuestion.truth (T : Texts) (P : Params) (w : World) (a : Addr) : UserQuestion → Option UserReply
  | .contract q => ((w a).bind (q.truth P)).map .contract
  | .chainInfo n =>
    match w a with
    | some (.router s) => (Router.lookup s.chains n).map .endpoint
    | _ => none
  | .proof sid => (answer (Chain.askProof P w a sid)).map (.proof sid)
  | .currentSet =>
    match w a with
    | some (.prover s _ _) => s.current.map .set
    | _ => none
  | .registeredSet id =>
    match w a with
    | some (.multisig s) => (s.workerSets id).map .set
    | _ => none
  | .service n =>
    match w a with
    | some (.registry s) => (Registry.findService s.services n).map (.service n)
    | _ => none
  | .worker n x =>
    match w a with
    | some (.registry s) => (T.parse x).bind (fun y => (Registry.findWorker s n y).map .worker)
    | _ => none

/-- `RecoveryId` of `k256`: one of four -/
def FourIds (X : Encoding.Ext) : Prop := ∀ d k s r, X.recoveryId d k s = some r → r ≤ 3

end Amp.Wire
