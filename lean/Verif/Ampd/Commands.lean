import Verif.Ampd.Config
import Verif.Registry.Model
import Verif.Multisig.Model

/-!
# The commands of the daemon and the key manager (`ampd/src/commands`, `ampd/src/tofnd`)
-/

namespace Amp.Ampd

open Amp.Encoding (Bytes)
open Amp.Router (ChainName)

/-- The key manager (tofnd), a process of its own, after its protocol (`ampd/proto/tofnd/multisig.proto`): it holds
mnemonics (the latest first); a mnemonic and a key id determine a key. -/
structure Tofnd (M S : Type) where
  mnemonics : List M
  derive : M → Str → S
  pub : S → Bytes
  sign : S → Bytes → Bytes

/-- `multisig.proto:13-23` (`Keygen`), `tofnd/grpc.rs:46-75` (`keygen`): the key of the latest mnemonic under the id.
Failures of the connection are left out, and replies are taken to be well-formed. -/
def Tofnd.keygen {M S : Type} (T : Tofnd M S) (uid : Str) : Option Bytes :=
  T.mnemonics.head?.map (fun m => T.pub (T.derive m uid))

/-- `multisig.proto:25-37` (`Sign`; the public key is there "to find the right mnemonic"), `tofnd/grpc.rs:77-110`
(`sign`).  The signature is given in its raw form, to which the client converts it. -/
def Tofnd.signFor {M S : Type} (T : Tofnd M S) (uid : Str) (digest key : Bytes) : Option Bytes :=
  (T.mnemonics.find? (fun m => T.pub (T.derive m uid) = key)).map (fun m => T.sign (T.derive m uid) digest)

/-- what the commands take from libraries: the account of a public key (`PublicKey::account_id`), which strings are
denominations (`Coin::new`), and the text of an address -/
structure Lib where
  account : Bytes → Addr
  denom : Str → Bool
  text : Addr → Str

/-- the parts of `config.rs:12-25` (`Config`) that are in use: `tofnd_config.key_uid` (`tofnd/mod.rs:14-29`),
`service_registry.cosmwasm_contract` (`commands/mod.rs:43-46`), `handlers` -/
structure DaemonCfg where
  keyUid : Str
  serviceRegistry : Addr
  handlers : List HandlerCfg

/-- `commands/mod.rs:57-71` (`worker_pub_key`), `lib.rs:87-99`: the public key of the worker, from the state file or
from the key manager -/
def workerKey {M S : Type} (T : Tofnd M S) (saved : Option Bytes) (cfg : DaemonCfg) : Option Bytes :=
  match saved with
  | some k => some k
  | none => T.keygen cfg.keyUid

/-- messages of the commands -/
inductive CmdMsg
  | registry (m : Registry.Msg)
  | multisig (m : Multisig.Msg)
  deriving DecidableEq

/-- `MsgExecuteContract` as built by the commands -/
structure CmdTx where
  sender : Addr
  contract : Addr
  funds : List Registry.Coin
  msg : CmdMsg
  deriving DecidableEq

/-- `ampd/src/lib.rs` (`Error`) as far as it occurs before anything is sent -/
inductive CmdErr
  | tofnd
  | invalidInput
  | loadConfig
  deriving DecidableEq, Repr

/-- `commands/bond_worker.rs:22-46` (`run`) up to the broadcast.  (The service name is not empty, which nothing depends
on.) -/
def bondWorker {M S : Type} (L : Lib) (T : Tofnd M S) (saved : Option Bytes) (cfg : DaemonCfg) (service : Str)
    (amount : Nat) (denom : Str) : Except CmdErr CmdTx :=
  if L.denom denom = false then .error .invalidInput
  else
    match workerKey T saved cfg with
    | none => .error .tofnd
    | some k => .ok ⟨L.account k, cfg.serviceRegistry, [(denom, amount)], .registry (.bondWorker service)⟩

/-- `commands/declare_chain_support.rs:21-44` (`run`) -/
def declareChainSupport {M S : Type} (L : Lib) (T : Tofnd M S) (saved : Option Bytes) (cfg : DaemonCfg) (service : Str)
    (chains : List ChainName) : Except CmdErr CmdTx :=
  match workerKey T saved cfg with
  | none => .error .tofnd
  | some k => .ok ⟨L.account k, cfg.serviceRegistry, [], .registry (.declareChainSupport service chains)⟩

/-- `commands/register_public_key.rs:46-59` (`get_multisig_address`) -/
def multisigAddress : List HandlerCfg → Option Addr
  | [] => none
  | .multisig a :: _ => some a
  | _ :: t => multisigAddress t

/-- `commands/register_public_key.rs:17-44` (`run`).  The key is checked as the multisig contract checks it
(`multisig/src/key.rs:216-240`). -/
def registerPublicKey {M S : Type} (L : Lib) (T : Tofnd M S) (saved : Option Bytes) (cfg : DaemonCfg) :
    Except CmdErr CmdTx :=
  match workerKey T saved cfg with
  | none => .error .tofnd
  | some k =>
    match multisigAddress cfg.handlers with
    | none => .error .loadConfig
    | some a =>
      match Multisig.PublicKey.tryFrom .ecdsa k with
      | .error _ => .error .tofnd
      | .ok pk => .ok ⟨L.account k, a, [], .multisig (.registerPublicKey .ecdsa pk.bytes)⟩

/-- `commands/worker_address.rs:12-17` (`run`) -/
def workerAddress {M S : Type} (L : Lib) (T : Tofnd M S) (saved : Option Bytes) (cfg : DaemonCfg) : Option Addr :=
  (workerKey T saved cfg).map L.account

/-- `lib.rs:87-104` (`prepare_app`): the worker that the daemon's handlers act for, and the key that is saved -/
def daemonWorker {M S : Type} (L : Lib) (T : Tofnd M S) (saved : Option Bytes) (cfg : DaemonCfg) :
    Option (Addr × Bytes) :=
  (workerKey T saved cfg).map (fun k => (L.account k, k))

/-- `handlers/multisig.rs:155-160`: the signing handler asks the key manager for a signature under the address of the
multisig contract as key id -/
def signingEnv {M S : Type} (L : Lib) (T : Tofnd M S) (accepted : Bool) : Signing.Env :=
  ⟨fun a digest key => T.signFor (L.text a) digest key, accepted⟩

end Amp.Ampd
