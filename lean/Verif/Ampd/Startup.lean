import Verif.Ampd.Commands
import Verif.Ampd.Events
import Verif.Ampd.Supervise

/-!
# Model of the start of the daemon: configuration, state file, first connections

`ampd/src/main.rs`, `ampd/src/config.rs`, `ampd/src/state.rs`, `ampd/src/lib.rs` (`run`, `prepare_app`),
`ampd/src/commands/daemon.rs`.

The formats of configuration files, the text of URLs, durations and so on are parameters.  Logging is left out.
-/

namespace Amp.Ampd

open Amp.Encoding (Bytes)

/-! ### Values of the configuration -/

/-- a value of a configuration file, as the `config` crate has it after parsing.  Scalars and arrays are leaves.  The
names in a table are different (`Conf.Proper`), and their order has no meaning. -/
inductive Conf (A : Type)
  | leaf (a : A)
  | table (m : List (Str × Conf A))

/-- the entry of a table -/
def entry {A : Type} (m : List (Str × Conf A)) (k : Str) : Option (Conf A) := (m.find? (fun e => e.1 = k)).map Prod.snd

/-- the table with an entry replaced or added -/
def putEntry {A : Type} (m : List (Str × Conf A)) (k : Str) (v : Conf A) : List (Str × Conf A) :=
  m.filter (fun e => e.1 ≠ k) ++ [(k, v)]

/-- the table under a name; an empty one if there is none -/
def subTable {A : Type} (m : List (Str × Conf A)) (k : Str) : List (Str × Conf A) :=
  match entry m k with
  | some (.table t) => t
  | _ => []

mutual

/-- `config::Config` (`main.rs:132-135`, library code): set the value under a name.  Tables are merged, everything else is
replaced. -/
def setEntry {A : Type} (m : List (Str × Conf A)) (k : Str) : Conf A → List (Str × Conf A)
  | .leaf a => putEntry m k (.leaf a)
  | .table t => putEntry m k (.table (overlay (subTable m k) t))

/-- the entries of a source over those of earlier sources -/
def overlay {A : Type} (m : List (Str × Conf A)) : List (Str × Conf A) → List (Str × Conf A)
  | [] => m
  | (k, v) :: t => overlay (setEntry m k v) t

end

/-! ### Finding and reading the configuration -/

/-- a path: whether it begins at the root, and its components -/
structure FilePath where
  absolute : Bool
  parts : List Str
  deriving DecidableEq, Repr

/-- `main.rs:140-147` (`expand_home_dir`); `home` is the home directory, if there is one -/
def expandHome (home : Option FilePath) (p : FilePath) : FilePath :=
  match p with
  | ⟨false, c :: rest⟩ =>
    if c = "~".toList then
      match home with
      | some h => ⟨h.absolute, h.parts ++ rest⟩
      | none => p
    else p
  | _ => p

/-- a file as the `config` crate sees it: its content cannot be read or parsed, or it is a table -/
inductive ConfFile (A : Type)
  | broken
  | parsed (m : List (Str × Conf A))

/-- what the process finds: its home directory, the files that exist, and the variables of the environment -/
structure Machine (A : Type) where
  home : Option FilePath
  file : FilePath → Option (ConfFile A)
  env : List (Str × Str)

/-- `main.rs:112-127` (`find_config_files`): the files that exist (for which `canonicalize` succeeds), in the order of the
paths -/
def findFiles {A : Type} (M : Machine A) (paths : List FilePath) : List (ConfFile A) :=
  paths.filterMap (fun p => M.file (expandHome M.home p))

/-- how leaves are read: as URLs, numbers, texts, addresses, chain ids, durations, gas prices, lists of handlers; and the
leaf for a text -/
structure Leaves (A : Type) where
  text : A → Option Str
  url : A → Option Str
  count : A → Option Nat
  addr : A → Option Addr
  chainId : A → Option Str
  duration : A → Option Nat
  number : A → Option Str
  price : A → Option Str
  handlers : A → Option (List HandlerCfg)
  ofText : Str → A
  lower : Str → Str

/-- `Environment::with_prefix` (`main.rs:134`, library code): the variables whose names begin with `ampd_`, in lower case,
without this prefix.  No separator is set, so that every variable is an entry of the outermost table. -/
def envTable {A : Type} (R : Leaves A) (env : List (Str × Str)) : List (Str × Conf A) :=
  env.filterMap (fun v =>
    if "ampd_".toList.isPrefixOf (R.lower v.1) then some ((R.lower v.1).drop 5, .leaf (R.ofText v.2)) else none)

/-- all files over each other, in order; nothing if one is broken -/
def overlayFiles {A : Type} (m : List (Str × Conf A)) : List (ConfFile A) → Option (List (Str × Conf A))
  | [] => some m
  | .broken :: _ => none
  | .parsed t :: fs => overlayFiles (overlay m t) fs

/-- `main.rs:132-135`: all sources -/
def gather {A : Type} (R : Leaves A) (M : Machine A) (paths : List FilePath) : Option (List (Str × Conf A)) :=
  (overlayFiles [] (findFiles M paths)).map (fun m => overlay m (envTable R M.env))

/-! ### The configuration -/

/-- `broadcaster.rs:52-63` (`Config`) -/
structure BroadcastSection where
  chainId : Str
  txFetchInterval : Nat
  txFetchMaxRetries : Nat
  gasAdjustment : Str
  gasPrice : Str
  batchGasLimit : Nat
  queueCap : Nat
  broadcastInterval : Nat
  deriving DecidableEq, Repr

/-- `tofnd/mod.rs:14-19` (`Config`) -/
structure TofndSection where
  url : Str
  partyUid : Str
  keyUid : Str
  deriving DecidableEq, Repr

/-- `config.rs:9-20` (`Config`); the section `service_registry` (`commands/mod.rs:43-46`) has a single field -/
structure AmpdCfg where
  tmJsonrpc : Str
  tmGrpc : Str
  eventBufferCap : Nat
  broadcast : BroadcastSection
  handlers : List HandlerCfg
  tofnd : TofndSection
  serviceRegistry : Addr
  deriving DecidableEq, Repr

/-- the part of the configuration that the commands depend on -/
def AmpdCfg.daemon (c : AmpdCfg) : DaemonCfg := ⟨c.tofnd.keyUid, c.serviceRegistry, c.handlers⟩

/-- `config.rs:22-34` (`Default`), `broadcaster.rs:65-78`, `tofnd/mod.rs:21-29`, `commands/mod.rs:49-55`; durations in
milliseconds.  `nobody` is the address of 32 zero bytes. -/
def AmpdCfg.default (nobody : Addr) : AmpdCfg where
  tmJsonrpc := "http://localhost:26657".toList
  tmGrpc := "tcp://localhost:9090".toList
  eventBufferCap := 100000
  broadcast := ⟨"axelar-dojo-1".toList, 500, 10, "1.0".toList, "0.00005uaxl".toList, 1000000, 1000, 5000⟩
  handlers := []
  tofnd := ⟨"http://localhost:50051/".toList, "ampd".toList, "axelar".toList⟩
  serviceRegistry := nobody

/-- a field that has to be there -/
def needed {A X : Type} (m : List (Str × Conf A)) (k : Str) (read : A → Option X) : Option X :=
  match entry m k with
  | some (.leaf a) => read a
  | _ => none

/-- `#[serde(default)]`: a field that need not be there -/
def orElse {A X : Type} (m : List (Str × Conf A)) (k : Str) (read : A → Option X) (d : X) : Option X :=
  match entry m k with
  | none => some d
  | some (.leaf a) => read a
  | some (.table _) => none

/-- `#[serde(default)]`: a section that need not be there -/
def sectionOrElse {A X : Type} (m : List (Str × Conf A)) (k : Str) (read : List (Str × Conf A) → Option X) (d : X) :
    Option X :=
  match entry m k with
  | none => some d
  | some (.leaf _) => none
  | some (.table t) => read t

/-- `broadcaster.rs:51-63`: no field of the section may be left out -/
def readBroadcast {A : Type} (R : Leaves A) (m : List (Str × Conf A)) : Option BroadcastSection := do
  return ⟨← needed m "chain_id".toList R.chainId, ← needed m "tx_fetch_interval".toList R.duration,
    ← needed m "tx_fetch_max_retries".toList R.count, ← needed m "gas_adjustment".toList R.number,
    ← needed m "gas_price".toList R.price, ← needed m "batch_gas_limit".toList R.count,
    ← needed m "queue_cap".toList R.count, ← needed m "broadcast_interval".toList R.duration⟩

/-- `tofnd/mod.rs:14-19` -/
def readTofnd {A : Type} (R : Leaves A) (m : List (Str × Conf A)) : Option TofndSection := do
  return ⟨← needed m "url".toList R.url, ← needed m "party_uid".toList R.text, ← needed m "key_uid".toList R.text⟩

/-- `commands/mod.rs:43-46` -/
def readRegistry {A : Type} (R : Leaves A) (m : List (Str × Conf A)) : Option Addr :=
  needed m "cosmwasm_contract".toList R.addr

/-- `handlers/config.rs:136-149` -/
def readHandlers {A : Type} (R : Leaves A) (a : A) : Option (List HandlerCfg) := do
  let hs ← R.handlers a
  match validate hs with
  | .ok _ => some hs
  | .error _ => none

/-- `config.rs:9-20`: fields that are not known are ignored, those that are missing get their default -/
def readConfig {A : Type} (R : Leaves A) (nobody : Addr) (m : List (Str × Conf A)) : Option AmpdCfg := do
  let d := AmpdCfg.default nobody
  return ⟨← orElse m "tm_jsonrpc".toList R.url d.tmJsonrpc, ← orElse m "tm_grpc".toList R.url d.tmGrpc,
    ← orElse m "event_buffer_cap".toList R.count d.eventBufferCap,
    ← sectionOrElse m "broadcast".toList (readBroadcast R) d.broadcast,
    ← orElse m "handlers".toList (readHandlers R) d.handlers,
    ← sectionOrElse m "tofnd_config".toList (readTofnd R) d.tofnd,
    ← sectionOrElse m "service_registry".toList (readRegistry R) d.serviceRegistry⟩

/-- `main.rs:129-138` (`parse_config`) -/
def parseConfig {A : Type} (R : Leaves A) (nobody : Addr) (M : Machine A) (paths : List FilePath) : Option AmpdCfg :=
  (gather R M paths).bind (readConfig R nobody)

/-- `main.rs:103-110` (`init_config`): an error is logged, and the default is used -/
def initConfig {A : Type} (R : Leaves A) (nobody : Addr) (M : Machine A) (paths : List FilePath) : AmpdCfg :=
  (parseConfig R nobody M paths).getD (.default nobody)

/-! ### The state file, and the start -/

/-- `state.rs:24-29` (`State`) -/
structure Saved where
  heights : StateFile
  key : Option Bytes
  deriving DecidableEq, Repr

/-- the state file: it is not there or cannot be read, it has another content, or it has a state -/
inductive StateText
  | unreadable
  | invalid
  | state (s : Saved)
  deriving DecidableEq, Repr

/-- `lib.rs:350-372` (`Error`), as far as it arises at the start or the end of the daemon -/
inductive StartErr
  | loadConfig
  | connection
  | tofnd
  | broadcaster
  | running (e : DaemonError)
  | returnState
  deriving DecidableEq, Repr

/-- `state.rs:91-101` (`load`), `daemon.rs:10` -/
def loadState : StateText → Except StartErr Saved
  | .unreadable => .ok ⟨[], none⟩
  | .invalid => .error .loadConfig
  | .state s => .ok s

/-- what the daemon meets when it starts: whether the nodes and the key manager can be reached at the addresses of the
configuration, and whether the node knows the account of the worker -/
structure Outside (M S : Type) where
  reachable : AmpdCfg → Bool
  tofnd : Tofnd M S
  known : Addr → Bool

/-- `lib.rs:58-131` (`prepare_app`): the worker, and the state to begin with -/
def prepareApp {M S : Type} (L : Lib) (O : Outside M S) (cfg : AmpdCfg) (s : Saved) : Except StartErr (Addr × Saved) :=
  if O.reachable cfg = false then .error .connection
  else
    match workerKey O.tofnd s.key cfg.daemon with
    | none => .error .tofnd
    | some k => if O.known (L.account k) then .ok (L.account k, { s with key := some k }) else .error .broadcaster

/-- `lib.rs:49-56` (`run`).  `app` is what the daemon does once it is running (`Events.lean`, `Supervise.lean`): it ends with
new heights and a result. -/
def runApp {M S : Type} (L : Lib) (O : Outside M S) (cfg : AmpdCfg) (s : Saved)
    (app : AmpdCfg → Addr → StateFile → StateFile × Except DaemonError Unit) : Saved × Except StartErr Unit :=
  match prepareApp L O cfg s with
  | .error e => (s, .error e)
  | .ok (worker, s') =>
    match app cfg worker s'.heights with
    | (heights, .ok _) => ({ s' with heights := heights }, .ok ())
    | (heights, .error e) => ({ s' with heights := heights }, .error (.running e))

/-- `daemon.rs:9-27` (`run`) and `main.rs:72-89`: what is in the state file afterwards, and the result; the process exits
with success iff the result is `Ok`.  `writable` says whether the state can be written.  (Of two errors the first is
given.) -/
def daemonMain {M S : Type} (L : Lib) (O : Outside M S) (cfg : AmpdCfg) (file : StateText) (writable : Bool)
    (app : AmpdCfg → Addr → StateFile → StateFile × Except DaemonError Unit) : StateText × Except StartErr Unit :=
  match loadState file with
  | .error e => (file, .error e)
  | .ok s =>
    match runApp L O cfg s app, writable with
    | (s', r), true => (.state s', r)
    | (_, .error e), false => (file, .error e)
    | (_, .ok _), false => (file, .error .returnState)

end Amp.Ampd
