import Verif.Proto.Tx

/-!
# Specification for C99 and C100: what a node of the chain reads
-/

namespace Amp.Proto

/-- the number that a text of digits stands for -/
def digits (s : Str) : Option Nat := if s ≠ [] ∧ s.all Char.isDigit then some (Nat.ofDigitChars 10 s 0) else none

/-- every element of a repeated field is read -/
def readEach {α : Type} (f : ByteList → Option α) : List ByteList → Option (List α)
  | [] => some []
  | b :: t =>
    match f b, readEach f t with
    | some a, some l => some (a :: l)
    | _, _ => none

/-- `cosmos.base.v1beta1.Coin`, read -/
def readCoin (b : ByteList) : Option CoinMsg :=
  match fields b with
  | none => none
  | some fs =>
    match getStr 1 fs, (getStr 2 fs).bind digits with
    | some d, some n => some ⟨d, n⟩
    | _, _ => none

/-- `google.protobuf.Any`, read -/
def readAny (b : ByteList) : Option AnyMsg := (fields b).bind AnyMsg.ofFields

/-- `cosmwasm.wasm.v1.MsgExecuteContract`, read -/
def readExecute (a : AnyMsg) : Option ExecuteMsg :=
  if a.typeUrl = "/cosmwasm.wasm.v1.MsgExecuteContract".toList then
    match fields a.value with
    | none => none
    | some fs =>
      match getStr 1 fs, getStr 2 fs, getRaw 3 fs, (getMany 5 fs).bind (readEach readCoin) with
      | some s, some c, some m, some f => some ⟨s, c, m, f⟩
      | _, _, _, _ => none
  else none

/-- what the contract module hands to a contract: addresses are parsed, and the message is text -/
def delivered (T : Wire.Texts) (m : ExecuteMsg) : Option Wire.TextPending :=
  match T.parse m.sender, T.parse m.contract, Wire.decodeUtf8 m.msg with
  | some s, some c, some t => some ⟨s, c, m.funds.map (fun c => (c.denom, c.amount)), t⟩
  | _, _, _ => none

/-- what a signer says of itself: key, signing mode, sequence number -/
structure SignerView where
  key : Option AnyMsg
  mode : Nat
  sequence : Nat
  deriving DecidableEq

/-- `SignerInfo` with the mode `single`, read -/
def readSigner (b : ByteList) : Option SignerView :=
  match fields b with
  | none => none
  | some fs =>
    match getAny 1 fs, getMsg 2 fs, getNum 3 fs with
    | some k, some (some mode), some n =>
      match getMsg 1 mode with
      | some (some single) => (getNum 1 single).map (fun m => ⟨k, m, n⟩)
      | _ => none
    | _, _, _ => none

/-- what a node makes of a transaction -/
structure View where
  msgs : List AnyMsg
  memo : Str
  timeoutHeight : Nat
  signers : List SignerView
  fee : List CoinMsg
  gasLimit : Nat
  payer : Str
  granter : Str
  signatures : List ByteList
  deriving DecidableEq

/-- `TxBody`: messages, memo, timeout height -/
def readBody (b : ByteList) : Option (List AnyMsg × Str × Nat) :=
  match fields b with
  | none => none
  | some fs =>
    match (getMany 1 fs).bind (readEach readAny), getStr 2 fs, getNum 3 fs with
    | some ms, some memo, some t => some (ms, memo, t)
    | _, _, _ => none

/-- `Fee`: amount, gas limit, payer, granter -/
def readFee (fs : List (Nat × Field)) : Option (List CoinMsg × Nat × Str × Str) :=
  match (getMany 1 fs).bind (readEach readCoin), getNum 2 fs, getStr 3 fs, getStr 4 fs with
  | some cs, some g, some p, some q => some (cs, g, p, q)
  | _, _, _, _ => none

/-- a transaction, read: a fee must be there -/
def nodeReads (b : ByteList) : Option View :=
  match fields b with
  | none => none
  | some fs =>
    match getRaw 1 fs, getRaw 2 fs, getMany 3 fs with
    | some body, some auth, some sigs =>
      match readBody body, fields auth with
      | some (ms, memo, t), some afs =>
        match (getMany 1 afs).bind (readEach readSigner), (getMsg 2 afs) with
        | some ss, some (some ffs) => (readFee ffs).map (fun f => ⟨ms, memo, t, ss, f.1, f.2.1, f.2.2.1, f.2.2.2, sigs⟩)
        | _, _ => none
      | _, _ => none
    | _, _, _ => none

/-- the bytes that signatures of a transaction are checked against, by a node of the chain `chainId`, if the number of the
account of the signer is `accNumber` -/
def nodeSignBytes (chainId : Str) (accNumber : Nat) (b : ByteList) : Option ByteList :=
  match fields b with
  | none => none
  | some fs =>
    match getRaw 1 fs, getRaw 2 fs with
    | some body, some auth => some (write (docFields body auth chainId accNumber))
    | _, _ => none

/-- a transaction with numbers in range -/
structure Tx.InRange (t : Tx) : Prop where
  sequence : t.accSequence ≤ u64Max
  gasLimit : t.fee.gasLimit ≤ u64Max

end Amp.Proto
