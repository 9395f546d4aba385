import Verif.Proto.Wire
import Verif.Ampd.Broadcaster
import Verif.Wire.TextChain

/-!
# Transactions of the daemon (`ampd/src/broadcaster/tx.rs`, `ampd/src/broadcaster/accounts.rs`)

Not part of `/repo`, and transcribed here: the messages of the crates `cosmrs` 0.14 and `cosmos-sdk-proto` that are used.
Memo, timeout height, payer and granter of the fee stay at their defaults, which are not written.
-/

namespace Amp.Proto

/-! ### Messages -/

/-- `google.protobuf.Any` -/
structure AnyMsg where
  typeUrl : Str
  value : ByteList
  deriving DecidableEq

/-- the fields of the same -/
def AnyMsg.fields (a : AnyMsg) : List (Nat × Field) := str 1 a.typeUrl ++ raw 2 a.value

/-- `cosmrs::Coin`, `cosmos.base.v1beta1.Coin`: the amount is written as a decimal number -/
structure CoinMsg where
  denom : Str
  amount : Nat
  deriving DecidableEq

/-- the fields of the same -/
def CoinMsg.fields (c : CoinMsg) : List (Nat × Field) := str 1 c.denom ++ str 2 (showNat c.amount)

/-- `cosmrs::tx::Fee`, `cosmos.tx.v1beta1.Fee`, without payer and granter -/
structure FeeMsg where
  amount : List CoinMsg
  gasLimit : Nat
  deriving DecidableEq

/-- `Fee::from_amount_and_gas` -/
def FeeMsg.of (coin : CoinMsg) (gas : Nat) : FeeMsg := ⟨[coin], gas⟩

/-- the fields of the same -/
def FeeMsg.fields (f : FeeMsg) : List (Nat × Field) := many 1 (f.amount.map (fun c => write c.fields)) ++ num 2 f.gasLimit

/-- `cosmrs::crypto::PublicKey` -/
inductive AccountKey
  | secp256k1 (b : ByteList)
  | ed25519 (b : ByteList)
  deriving DecidableEq

/-- the same as `Any`: `cosmos.crypto.*.PubKey` -/
def AccountKey.any : AccountKey → AnyMsg
  | .secp256k1 b => ⟨"/cosmos.crypto.secp256k1.PubKey".toList, write (raw 1 b)⟩
  | .ed25519 b => ⟨"/cosmos.crypto.ed25519.PubKey".toList, write (raw 1 b)⟩

/-- `SIGN_MODE_DIRECT` -/
def direct : Nat := 1

/-- `ModeInfo` with one signer -/
def modeFields : List (Nat × Field) := [(1, .bytes (write (num 1 direct)))]

/-- `SignerInfo::single_direct` -/
def signerFields (key : AccountKey) (sequence : Nat) : List (Nat × Field) :=
  [(1, .bytes (write key.any.fields)), (2, .bytes (write modeFields))] ++ num 3 sequence

/-- `AuthInfo` -/
def authFields (key : AccountKey) (sequence : Nat) (fee : FeeMsg) : List (Nat × Field) :=
  [(1, .bytes (write (signerFields key sequence))), (2, .bytes (write fee.fields))]

/-- `TxBody` as made by `BodyBuilder` -/
def bodyFields (msgs : List AnyMsg) : List (Nat × Field) := many 1 (msgs.map (fun m => write m.fields))

/-- `SignDoc` -/
def docFields (body auth : ByteList) (chainId : Str) (accNumber : Nat) : List (Nat × Field) :=
  raw 1 body ++ raw 2 auth ++ str 3 chainId ++ num 4 accNumber

/-- `TxRaw` -/
structure TxRaw where
  body : ByteList
  auth : ByteList
  signatures : List ByteList
  deriving DecidableEq

/-- `TxRaw::to_bytes` -/
def TxRaw.bytes (t : TxRaw) : ByteList := write (raw 1 t.body ++ raw 2 t.auth ++ many 3 t.signatures)

/-- `cosmrs::cosmwasm::MsgExecuteContract` -/
structure ExecuteMsg where
  sender : Str
  contract : Str
  msg : ByteList
  funds : List CoinMsg
  deriving DecidableEq

/-- `into_any` (`queue/queued_broadcaster.rs:62`, `commands/*.rs`) -/
def ExecuteMsg.any (m : ExecuteMsg) : AnyMsg := ⟨"/cosmwasm.wasm.v1.MsgExecuteContract".toList,
  write (str 1 m.sender ++ str 2 m.contract ++ raw 3 m.msg ++ many 5 (m.funds.map (fun c => write c.fields)))⟩

/-- `MsgExecuteContract` as handlers and commands build it (`handlers/evm_verify_msg.rs:129-136`,
`handlers/evm_verify_worker_set.rs:122-132`, `handlers/sui_verify_msg.rs:80-87`, `handlers/sui_verify_worker_set.rs:85-95`,
`handlers/multisig.rs:102-113`, `commands/bond_worker.rs:28-38`, `commands/declare_chain_support.rs:25-36`,
`commands/register_public_key.rs:22-33`): the message is `serde_json::to_vec` -/
def executeOf (G : Wire.Texture) (p : Chain.Pending) : ExecuteMsg :=
  ⟨G.T.text p.sender, G.T.text p.target, utf8Bytes (Wire.write G p.msg), p.funds.map (fun c => ⟨c.1, c.2⟩)⟩

/-! ### `ampd/src/broadcaster/tx.rs` -/

/-- `Tx` (`tx.rs:27-36`) -/
structure Tx where
  msgs : List AnyMsg
  pubKey : AccountKey
  accSequence : Nat
  fee : FeeMsg
  deriving DecidableEq

/-- `zero_fee` (`tx.rs:42-50`) -/
def zeroFee : FeeMsg := .of ⟨[], 0⟩ 0

/-- the bytes that are signed: `SignDoc::new`, `into_bytes` (`tx.rs:70-82`) -/
def Tx.signBytes (t : Tx) (chainId : Str) (accNumber : Nat) : ByteList :=
  write (docFields (write (bodyFields t.msgs)) (write (authFields t.pubKey t.accSequence t.fee)) chainId accNumber)

/-- `sign_with` (`tx.rs:57-92`); `none` if there is no signature -/
def Tx.signWith (t : Tx) (chainId : Str) (accNumber : Nat) (sign : ByteList → Option ByteList) : Option TxRaw :=
  match sign (t.signBytes chainId accNumber) with
  | none => none
  | some sig => some ⟨write (bodyFields t.msgs), write (authFields t.pubKey t.accSequence t.fee), [sig]⟩

/-- `DUMMY_CHAIN_ID` (`tx.rs:17`) -/
def dummyChainId : Str := "dummy_chain_id".toList

/-- `with_dummy_sig` (`tx.rs:94-103`) -/
def Tx.withDummySig (t : Tx) : Option TxRaw := t.signWith dummyChainId 0 (fun _ => some (List.replicate 64 0))

/-! ### `ampd/src/broadcaster.rs` -/

/-- what stays the same in all transactions of a broadcaster (`broadcaster.rs:87-98`): chain id, account number, key, and the
denomination of fees -/
structure Account where
  chainId : Str
  number : Nat
  key : AccountKey
  denom : Str

/-- the transaction that `broadcast` builds (`broadcaster.rs:106-111`): `t` has the gas limit and fee of `estimate_fee` -/
def Account.tx (a : Account) (t : Ampd.Tx AnyMsg) : Tx := ⟨t.msgs, a.key, t.sequence, .of ⟨a.denom, t.fee⟩ t.gas⟩

/-- what `broadcast` hands to the node (`broadcaster.rs:106-132`): `sha` is SHA-256, `signer` the key at `tofnd` -/
def Account.submit (a : Account) (sha : ByteList → ByteList) (signer : ByteList → Option ByteList) (t : Ampd.Tx AnyMsg) :
    Option ByteList :=
  ((a.tx t).signWith a.chainId a.number (fun doc => signer (sha doc))).map TxRaw.bytes

/-- what `estimate_fee` has simulated (`broadcaster.rs:155-168`) -/
def Account.simulated (a : Account) (msgs : List AnyMsg) (sequence : Nat) : Option ByteList :=
  (Tx.withDummySig ⟨msgs, a.key, sequence, zeroFee⟩).map TxRaw.bytes

/-! ### `ampd/src/broadcaster/accounts.rs` -/

/-- `cosmos.auth.v1beta1.BaseAccount` -/
structure BaseAccount where
  address : Str
  pubKey : Option AnyMsg
  number : Nat
  sequence : Nat
  deriving DecidableEq

/-- `Any`, read -/
def AnyMsg.ofFields (fs : List (Nat × Field)) : Option AnyMsg :=
  match getStr 1 fs, getRaw 2 fs with
  | some t, some v => some ⟨t, v⟩
  | _, _ => none

/-- an embedded `Any` that may be missing -/
def getAny (tag : Nat) (fs : List (Nat × Field)) : Option (Option AnyMsg) :=
  match getMsg tag fs with
  | none => none
  | some none => some none
  | some (some m) => (AnyMsg.ofFields m).map some

/-- `BaseAccount::decode` -/
def BaseAccount.decode (b : ByteList) : Option BaseAccount :=
  match fields b with
  | none => none
  | some fs =>
    match getStr 1 fs, getAny 2 fs, getNum 3 fs, getNum 4 fs with
    | some a, some k, some n, some s => some ⟨a, k, n, s⟩
    | _, _, _, _ => none

/-- `accounts.rs:15-23` (`Error`) -/
inductive AccountErr
  | responseFailed
  | accountNotFound
  | malformedResponse
  deriving DecidableEq

/-- `account` (`accounts.rs:25-57`): the node's answer is an error or has an account or not -/
def account (response : Option (Option AnyMsg)) : Except AccountErr BaseAccount :=
  match response with
  | none => .error .responseFailed
  | some none => .error .accountNotFound
  | some (some a) =>
    match BaseAccount.decode a.value with
    | none => .error .malformedResponse
    | some b => .ok b

end Amp.Proto
