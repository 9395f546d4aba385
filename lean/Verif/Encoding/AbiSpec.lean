import Verif.Encoding.Types

/-!
# Decoding, as the destination contract does it (Solidity's `abi.decode`)

Written from the ABI specification, independently of the encoder: a value of dynamic type is found by the
offset in its head word, relative to the start of the tuple or of the array elements.
-/

namespace Amp.Encoding.Abi

/-- the 32-byte number at a position -/
def uintAt (b : Bytes) (pos : Nat) : Option Nat :=
  match sliceAt b pos 32 with
  | none => none
  | some w => some (ofBE w)

/-- a `bytes` or `string` value: its length, then the bytes -/
def bytesAt (b : Bytes) (pos : Nat) : Option Bytes :=
  match uintAt b pos with
  | none => none
  | some n => sliceAt b (pos + 32) n

/-- an `address`: 12 zero bytes, then the address -/
def addressAt (b : Bytes) (pos : Nat) : Option Bytes :=
  match sliceAt b pos 12 with
  | none => none
  | some z => if z = List.replicate 12 0 then sliceAt b (pos + 12) 20 else none

/-- follow the offset at `pos`, relative to `base` -/
def dynAt {α : Type} (read : Nat → Option α) (b : Bytes) (base pos : Nat) : Option α :=
  match uintAt b pos with
  | none => none
  | some off => read (base + off)

/-- an array: its length, then one head word per element; `read base p` reads an element whose head is at
`p` and whose offset, if any, is relative to `base` -/
def arrayAt {α : Type} (read : Nat → Nat → Option α) (b : Bytes) (pos : Nat) : Option (List α) :=
  match uintAt b pos with
  | none => none
  | some n => readFrom (fun i => read (pos + 32) (pos + 32 + 32 * i)) 0 n

/-- `bytes32[]` -/
def bytes32ArrayAt (b : Bytes) (pos : Nat) : Option (List Bytes) :=
  arrayAt (fun _ p => sliceAt b p 32) b pos

/-- `uint256[]` -/
def uintArrayAt (b : Bytes) (pos : Nat) : Option (List Nat) := arrayAt (fun _ p => uintAt b p) b pos

/-- `address[]` -/
def addressArrayAt (b : Bytes) (pos : Nat) : Option (List Bytes) :=
  arrayAt (fun _ p => addressAt b p) b pos

/-- `bytes[]`, `string[]` -/
def bytesArrayAt (b : Bytes) (pos : Nat) : Option (List Bytes) :=
  arrayAt (fun base p => dynAt (bytesAt b) b base p) b pos

/-- the type a string names -/
def commandType? (s : Bytes) : Option CommandType :=
  if s = utf8Bytes "approveContractCall".toList then some .approveContractCall
  else if s = utf8Bytes "transferOperatorship".toList then some .transferOperatorship
  else none

/-- three parallel lists of the same length -/
def zipCommands : List Bytes → List CommandType → List Bytes → Option (List Command)
  | [], [], [] => some []
  | i :: is, t :: ts, p :: ps =>
    match zipCommands is ts ps with
    | none => none
    | some cs => some (⟨i, t, p⟩ :: cs)
  | _, _, _ => none

/-- `abi.decode(data, (uint256, bytes32[], string[], bytes[]))`, as the gateway contract on the
destination chain does it -/
def decodeData (b : Bytes) : Option Data :=
  match uintAt b 0, dynAt (bytes32ArrayAt b) b 0 32, dynAt (bytesArrayAt b) b 0 64,
    dynAt (bytesArrayAt b) b 0 96 with
  | some c, some ids, some types, some params =>
    match allSome (types.map commandType?) with
    | none => none
    | some tys =>
      match zipCommands ids tys params with
      | none => none
      | some cs => some ⟨c, cs⟩
  | _, _, _, _ => none

/-- `abi.decode(params, (string, string, address, bytes32))`: source chain and address, destination
address, payload hash -/
def decodeCommandParams (b : Bytes) : Option (Bytes × Bytes × Bytes × Bytes) :=
  match dynAt (bytesAt b) b 0 0, dynAt (bytesAt b) b 0 32, addressAt b 64, sliceAt b 96 32 with
  | some c, some a, some d, some h => some (c, a, d, h)
  | _, _, _, _ => none

/-- `abi.decode(params, (address[], uint256[], uint256))`: operators, weights, threshold -/
def decodeOperatorship (b : Bytes) : Option (List Bytes × List Nat × Nat) :=
  match dynAt (addressArrayAt b) b 0 0, dynAt (uintArrayAt b) b 0 32, uintAt b 64 with
  | some a, some w, some t => some (a, w, t)
  | _, _, _ => none

/-- `abi.decode(proof, (address[], uint256[], uint256, bytes[]))`: operators, weights, threshold,
signatures -/
def decodeProof (b : Bytes) : Option (List Bytes × List Nat × Nat × List Bytes) :=
  match dynAt (addressArrayAt b) b 0 0, dynAt (uintArrayAt b) b 0 32, uintAt b 64,
    dynAt (bytesArrayAt b) b 0 96 with
  | some a, some w, some t, some s => some (a, w, t, s)
  | _, _, _, _ => none

/-- calldata of a call of a function with one `bytes` argument, which is itself the encoding of
`(bytes, bytes)` -/
def decodeCalldata (b : Bytes) : Option (Bytes × Bytes × Bytes) :=
  match sliceAt b 0 4, dynAt (bytesAt (b.drop 4)) (b.drop 4) 0 0 with
  | some sel, some input =>
    match dynAt (bytesAt input) input 0 0, dynAt (bytesAt input) input 0 32 with
    | some d, some p => some (sel, d, p)
    | _, _ => none
  | _, _ => none

end Amp.Encoding.Abi
