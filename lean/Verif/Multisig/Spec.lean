import Verif.Multisig.Model

/-!
# Vocabulary for the properties of the multisig contract
-/

namespace Amp.Multisig

/-- the state after a list of calls -/
def stateAfter (C : Crypto) (idOf : WorkerSet → Str) (cfg : Config) (cs : List Call) : State :=
  runCalls (exec C idOf) (init cfg) cs

/-- the successful calls of a history -/
def trace (C : Crypto) (idOf : WorkerSet → Str) (cfg : Config) (cs : List Call) :
    List (Step State Call Resp) := steps (exec C idOf) (init cfg) cs

/-- the signature has the length of its type and verifies under the key, which is of the same type -/
def Valid (C : Crypto) (msg : Bin) : PublicKey → Signature → Prop
  | .ecdsa k, .ecdsa b => b.length = 64 ∧ C.secp256k1Verify msg b k = some true
  | .ecdsa k, .ecdsaRecoverable b => b.length = 65 ∧ C.secp256k1Verify msg b k = some true
  | .ed25519 k, .ed25519 b => b.length = 64 ∧ C.ed25519Verify msg b k = some true
  | _, _ => False

/-- total weight of the members reported with a signature -/
def signedWeight (m : Multisig) : Nat :=
  (m.signers.map (fun p => match p.2 with
    | none => 0
    | some _ => p.1.weight)).sum

/-- total weight of the members of `ws` whose signature is recorded for session `id` -/
def recordedWeight (s : State) (id : Nat) (ws : WorkerSet) : Nat :=
  (ws.signers.map (fun e => match (s.signatures id).get? e.1 with
    | none => 0
    | some _ => e.2.weight)).sum

/-- a successful call started session `id` -/
def Started (log : List (Step State Call Resp)) (id : Nat) (wid : Str) (msg : Bin) : Prop :=
  ∃ st ∈ log, ∃ chain ok, st.call.msg = .startSigningSession wid msg chain ok ∧ st.resp.data = some id

/-- `a` successfully submitted these bytes for session `id` -/
def Submitted (log : List (Step State Call Resp)) (id : Nat) (a : Addr) (b : Bin) : Prop :=
  ∃ st ∈ log, st.call.sender = a ∧ st.call.msg = .submitSignature id b

/-- `ws` was registered -/
def Registered (log : List (Step State Call Resp)) (ws : WorkerSet) : Prop :=
  ∃ st ∈ log, ∃ r, st.call.msg = .registerWorkerSet r ∧ r.decode = .ok ws

/-- no two different registered worker sets have the same id -/
def NoCollision (idOf : WorkerSet → Str) (log : List (Step State Call Resp)) : Prop :=
  ∀ w w', Registered log w → Registered log w' → idOf w = idOf w' → w = w'

/-- the session is still open for signatures -/
def Open (st : SessionState) (grace height : Nat) : Prop :=
  st = .pending ∨ ∃ c, st = .completed c ∧ c + grace ≤ u64Max ∧ height ≤ c + grace

/-- the sessions started, in order -/
def startedIds (log : List (Step State Call Resp)) : List Nat :=
  log.filterMap (fun st => match st.call.msg with
    | .startSigningSession .. => st.resp.data
    | _ => none)

/-- is `a` authorised according to the history: the last governance decision about it -/
def authorizedIn (log : List (Step State Call Resp)) (a : Addr) : Bool :=
  log.foldl (fun b st => match st.call.msg with
    | .authorizeCaller x => if x = a then true else b
    | .unauthorizeCaller x => if x = a then false else b
    | _ => b) false

/-- all participation records sent -/
def recordsSent (log : List (Step State Call Resp)) : List Record := log.flatMap (·.resp.records)

/-- all completions announced: (session, height) -/
def completions (log : List (Step State Call Resp)) : List (Nat × Nat) :=
  log.flatMap (fun st => st.resp.events.filterMap (fun e => match e with
    | .signingCompleted id h => some (id, h)
    | _ => none))

/-- the key `a` registered last for a type -/
def lastKey (log : List (Step State Call Resp)) (a : Addr) (kt : KeyType) : Option Bin :=
  log.foldl (fun k st => match st.call.msg with
    | .registerPublicKey kt' b => if st.call.sender = a ∧ kt' = kt then some b else k
    | _ => k) none

/-- the lengths a key of a type may have -/
def keyLength (kt : KeyType) (n : Nat) : Prop :=
  match kt with
  | .ecdsa => n = 33 ∨ n = 65
  | .ed25519 => n = 32

end Amp.Multisig
