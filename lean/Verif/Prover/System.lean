import Verif.Prover.BatchProps
import Verif.Prover.Optimize
import Verif.Multisig.Props

/-!
# The prover together with the multisig contract

A transaction of the prover includes the message to the multisig contract and the reply; both contracts
change together or not at all. Any other call of the multisig contract, by anyone, may come in between.
-/

namespace Amp.Prover

open Amp.Encoding
open Amp.Multisig (Signature PublicKey Signer WorkerSet Crypto)
open Amp.Router (CCId Message ChainName)

/-- both storages -/
structure Sys where
  prover : State
  multisig : Multisig.State

/-- `multisig/src/worker_set.rs:9-20`: a worker set as it is serialised into the message -/
def toRaw (ws : WorkerSet) : Multisig.RawWorkerSet :=
  ⟨ws.signers.map (fun e => (e.1, ⟨e.2.address, e.2.weight, e.2.pubKey.keyType, e.2.pubKey.bytes⟩)),
    ws.threshold, ws.createdAt⟩

/-- `execute.rs:61-70, 195-201, 217-229, 249-257`: the messages to the multisig contract; the prover names no
signature verifier -/
def Out.toMultisig : Out → Multisig.Msg
  | .startSigning wid msg chain => .startSigningSession wid msg chain true
  | .registerWorkerSet ws => .registerWorkerSet (toRaw ws)

/-- a transaction: of the prover, or of the multisig contract by anyone -/
inductive Op
  | prover (msg : Msg) (env : Env)
  | multisig (call : Multisig.Call)

/-- what a transaction of the prover yields; nothing for others -/
abbrev SysResp := Option Resp

/-- One transaction. `self` is the address of the prover. The prover's handler runs first, then the
multisig contract, then the prover's reply (`contract.rs:56-84`); `exec` runs the handler again to continue
with the answer. -/
def sysExec (X : Ext) (C : Crypto) (self : Addr) (S : Sys) : Op → Except Unit (Sys × SysResp)
  | .prover msg env =>
    match handle X S.prover env msg with
    | .error _ => .error ()
    | .ok (_, out) =>
      match Multisig.exec C (workerSetId X) S.multisig ⟨self, env.height, out.toMultisig⟩ with
      | .error _ => .error ()
      | .ok (m', r) =>
        match exec X S.prover ⟨msg, env, some r.data⟩ with
        | .error _ => .error ()
        | .ok (p', pr) => .ok (⟨p', m'⟩, some pr)
  | .multisig c =>
    match Multisig.exec C (workerSetId X) S.multisig c with
    | .error _ => .error ()
    | .ok (m', _) => .ok (⟨S.prover, m'⟩, none)

/-- both contracts freshly instantiated -/
def sysInit (cfg : Config) (mcfg : Multisig.Config) : Sys := ⟨init cfg, Multisig.init mcfg⟩

/-- the state after a history -/
def sysAfter (X : Ext) (C : Crypto) (self : Addr) (cfg : Config) (mcfg : Multisig.Config) (ops : List Op) :
    Sys := runCalls (sysExec X C self) (sysInit cfg mcfg) ops

/-- the successful transactions of a history -/
def sysLog (X : Ext) (C : Crypto) (self : Addr) (cfg : Config) (mcfg : Multisig.Config) (ops : List Op) :
    List (Step Sys Op SysResp) := steps (sysExec X C self) (sysInit cfg mcfg) ops

/-- the prover's `GetProof`, asking the multisig contract -/
def sysProof (X : Ext) (S : Sys) (sid : Nat) : Except Err Proof :=
  getProof X S.prover (Multisig.getMultisig S.multisig) sid

end Amp.Prover
