import Verif.Ampd.Startup
import Verif.Ampd.ConfigProps

/-!
# Specification for C108: the settings of the daemon, and who has the last word on them
-/

namespace Amp.Ampd

variable {A : Type}

/-- what a table has under a path of names -/
def under (m : List (Str × Conf A)) : List Str → Option (Conf A)
  | [] => some (.table m)
  | k :: p =>
    match entry m k with
    | none => none
    | some (.leaf a) => if p = [] then some (.leaf a) else none
    | some (.table t) => under t p

/-- a table says nothing about a path: no value and no table under it, and no value on the way -/
def Silent (m : List (Str × Conf A)) : List Str → Prop
  | [] => False
  | k :: p =>
    match entry m k with
    | none => True
    | some (.leaf _) => False
    | some (.table t) => Silent t p

mutual

/-- the names in a table are different, also further down -/
def Conf.Proper : Conf A → Prop
  | .leaf _ => True
  | .table m => ProperTable m

/-- the names in a table are different, also further down -/
def ProperTable : List (Str × Conf A) → Prop
  | [] => True
  | (k, v) :: t => k ∉ t.map Prod.fst ∧ v.Proper ∧ ProperTable t

end

/-- the tables that the daemon finds: those in the files that exist, in the order of the paths, and that of the
environment -/
def sources (R : Leaves A) (M : Machine A) (paths : List FilePath) : List (List (Str × Conf A)) :=
  (findFiles M paths).filterMap (fun f => match f with | .parsed t => some t | .broken => none) ++ [envTable R M.env]

/-- the last source that says something about the path has this value under it -/
def LastWord (srcs : List (List (Str × Conf A))) (p : List Str) (a : A) : Prop :=
  ∃ s₁ t s₂, srcs = s₁ ++ t :: s₂ ∧ under t p = some (.leaf a) ∧ ∀ s ∈ s₂, Silent s p

/-- no source says anything about the path -/
def Unset (srcs : List (List (Str × Conf A))) (p : List Str) : Prop := ∀ s ∈ srcs, Silent s p

/-- the sources are tables as the parsers make them, and no two variables of the environment have the same name in
lower case -/
def ProperSources (R : Leaves A) (M : Machine A) (paths : List FilePath) : Prop := ∀ s ∈ sources R M paths, ProperTable s

/-- the settings of the daemon -/
inductive Setting
  | tmJsonrpc
  | tmGrpc
  | eventBufferCap
  | handlers
  | chainId
  | txFetchInterval
  | txFetchMaxRetries
  | gasAdjustment
  | gasPrice
  | batchGasLimit
  | queueCap
  | broadcastInterval
  | tofndUrl
  | partyUid
  | keyUid
  | serviceRegistry
  deriving DecidableEq, Repr

/-- where a setting is found (`config.rs:9-20`, `broadcaster.rs:51-63`, `tofnd/mod.rs:14-19`, `commands/mod.rs:43-46`) -/
def Setting.path : Setting → List Str
  | .tmJsonrpc => ["tm_jsonrpc".toList]
  | .tmGrpc => ["tm_grpc".toList]
  | .eventBufferCap => ["event_buffer_cap".toList]
  | .handlers => ["handlers".toList]
  | .chainId => ["broadcast".toList, "chain_id".toList]
  | .txFetchInterval => ["broadcast".toList, "tx_fetch_interval".toList]
  | .txFetchMaxRetries => ["broadcast".toList, "tx_fetch_max_retries".toList]
  | .gasAdjustment => ["broadcast".toList, "gas_adjustment".toList]
  | .gasPrice => ["broadcast".toList, "gas_price".toList]
  | .batchGasLimit => ["broadcast".toList, "batch_gas_limit".toList]
  | .queueCap => ["broadcast".toList, "queue_cap".toList]
  | .broadcastInterval => ["broadcast".toList, "broadcast_interval".toList]
  | .tofndUrl => ["tofnd_config".toList, "url".toList]
  | .partyUid => ["tofnd_config".toList, "party_uid".toList]
  | .keyUid => ["tofnd_config".toList, "key_uid".toList]
  | .serviceRegistry => ["service_registry".toList, "cosmwasm_contract".toList]

/-- the value is read as what the configuration has for the setting -/
def Setting.Gives (R : Leaves A) (c : AmpdCfg) (a : A) : Setting → Prop
  | .tmJsonrpc => R.url a = some c.tmJsonrpc
  | .tmGrpc => R.url a = some c.tmGrpc
  | .eventBufferCap => R.count a = some c.eventBufferCap
  | .handlers => R.handlers a = some c.handlers
  | .chainId => R.chainId a = some c.broadcast.chainId
  | .txFetchInterval => R.duration a = some c.broadcast.txFetchInterval
  | .txFetchMaxRetries => R.count a = some c.broadcast.txFetchMaxRetries
  | .gasAdjustment => R.number a = some c.broadcast.gasAdjustment
  | .gasPrice => R.price a = some c.broadcast.gasPrice
  | .batchGasLimit => R.count a = some c.broadcast.batchGasLimit
  | .queueCap => R.count a = some c.broadcast.queueCap
  | .broadcastInterval => R.duration a = some c.broadcast.broadcastInterval
  | .tofndUrl => R.url a = some c.tofnd.url
  | .partyUid => R.text a = some c.tofnd.partyUid
  | .keyUid => R.text a = some c.tofnd.keyUid
  | .serviceRegistry => R.addr a = some c.serviceRegistry

/-- the configurations have the same for the setting -/
def Setting.Same (c d : AmpdCfg) : Setting → Prop
  | .tmJsonrpc => c.tmJsonrpc = d.tmJsonrpc
  | .tmGrpc => c.tmGrpc = d.tmGrpc
  | .eventBufferCap => c.eventBufferCap = d.eventBufferCap
  | .handlers => c.handlers = d.handlers
  | .chainId => c.broadcast.chainId = d.broadcast.chainId
  | .txFetchInterval => c.broadcast.txFetchInterval = d.broadcast.txFetchInterval
  | .txFetchMaxRetries => c.broadcast.txFetchMaxRetries = d.broadcast.txFetchMaxRetries
  | .gasAdjustment => c.broadcast.gasAdjustment = d.broadcast.gasAdjustment
  | .gasPrice => c.broadcast.gasPrice = d.broadcast.gasPrice
  | .batchGasLimit => c.broadcast.batchGasLimit = d.broadcast.batchGasLimit
  | .queueCap => c.broadcast.queueCap = d.broadcast.queueCap
  | .broadcastInterval => c.broadcast.broadcastInterval = d.broadcast.broadcastInterval
  | .tofndUrl => c.tofnd.url = d.tofnd.url
  | .partyUid => c.tofnd.partyUid = d.tofnd.partyUid
  | .keyUid => c.tofnd.keyUid = d.tofnd.keyUid
  | .serviceRegistry => c.serviceRegistry = d.serviceRegistry

/-- Something is wrong with what the operator configured: a file cannot be parsed; or a value that is in effect cannot be
read; or two entries ask for the same handler; or a section is there, but a field of it is nowhere to be found. -/
def Mistaken (R : Leaves A) (M : Machine A) (paths : List FilePath) : Prop :=
  .broken ∈ findFiles M paths ∨
  (∃ s a, LastWord (sources R M paths) (Setting.path s) a ∧ ∀ c, ¬ s.Gives R c a) ∨
  (∃ a hs, LastWord (sources R M paths) (Setting.path .handlers) a ∧ R.handlers a = some hs ∧
    ¬ hs.Pairwise (fun x y => ¬ SameHandler x y)) ∨
  (∃ s, ¬ Unset (sources R M paths) ((Setting.path s).take 1) ∧
    ∀ a, ¬ LastWord (sources R M paths) (Setting.path s) a)

end Amp.Ampd
