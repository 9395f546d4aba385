import Verif.Encoding.Types

/-!
# BCS decoding, as a Sui gateway does it

Independent of the encoder. A reader takes a value off the front of the bytes.
-/

namespace Amp.Encoding.Bcs

/-- takes a value off the front of the bytes -/
abbrev Reader (α : Type) := Bytes → Option (α × Bytes)

/-- a ULEB128 number of at most `k` bytes -/
def readUleb : Nat → Reader Nat
  | 0, _ => none
  | _ + 1, [] => none
  | k + 1, x :: t =>
    if x < 128 then some (x, t)
    else match readUleb k t with
      | none => none
      | some (v, r) => some (x - 128 + 128 * v, r)

/-- exactly `n` bytes -/
def readN (n : Nat) : Reader Bytes := fun b => if n ≤ b.length then some (b.take n, b.drop n) else none

/-- a little endian number of `k` bytes -/
def readLE (k : Nat) : Reader Nat := fun b =>
  match readN k b with
  | none => none
  | some (x, r) => some (ofLE x, r)

/-- `n` values in a row -/
def readMany {α : Type} (p : Reader α) : Nat → Reader (List α)
  | 0, b => some ([], b)
  | n + 1, b =>
    match p b with
    | none => none
    | some (x, r) =>
      match readMany p n r with
      | none => none
      | some (xs, r') => some (x :: xs, r')

/-- `vector<T>` -/
def readVec {α : Type} (p : Reader α) : Reader (List α) := fun b =>
  match readUleb 5 b with
  | none => none
  | some (n, r) => readMany p n r

/-- `vector<u8>` -/
def readBytes : Reader Bytes := fun b =>
  match readUleb 5 b with
  | none => none
  | some (n, r) => readN n r

/-- the command type names of the gateway -/
def commandType? (b : Bytes) : Option CommandType :=
  if b = utf8Bytes "approveContractCall".toList then some .approveContractCall
  else if b = utf8Bytes "transferOperatorship".toList then some .transferOperatorship
  else none

/-- put ids, types and parameters together; the lists must have equal lengths -/
def zipCommands : List Bytes → List CommandType → List Bytes → Option (List Command)
  | [], [], [] => some []
  | i :: is, t :: ts, p :: ps =>
    match zipCommands is ts ps with
    | none => none
    | some cs => some (⟨i, t, p⟩ :: cs)
  | _, _, _ => none

/-- `(u64, vector<address>, vector<string>, vector<vector<u8>>)`, and nothing after it -/
def decodeData (b : Bytes) : Option Data :=
  match readLE 8 b with
  | none => none
  | some (chainId, b) =>
    match readVec (readN 32) b with
    | none => none
    | some (ids, b) =>
      match readVec readBytes b with
      | none => none
      | some (tys, b) =>
        match readVec readBytes b with
        | none => none
        | some (params, b) =>
          if b = [] then
            match allSome (tys.map commandType?) with
            | none => none
            | some ts =>
              match zipCommands ids ts params with
              | none => none
              | some cs => some ⟨chainId, cs⟩
          else none

/-- `(string, string, address, vector<u8>)`: source chain, source address, destination, payload hash -/
def decodeCommandParams (b : Bytes) : Option (Bytes × Bytes × Bytes × Bytes) :=
  match readBytes b with
  | none => none
  | some (chain, b) =>
    match readBytes b with
    | none => none
    | some (src, b) =>
      match readN 32 b with
      | none => none
      | some (dst, b) =>
        match readBytes b with
        | none => none
        | some (payload, b) => if b = [] then some (chain, src, dst, payload) else none

/-- `(vector<vector<u8>>, vector<u128>, u128)`: operators, weights, threshold -/
def decodeOperatorship (b : Bytes) : Option (List Bytes × List Nat × Nat) :=
  match readVec readBytes b with
  | none => none
  | some (ops, b) =>
    match readVec (readLE 16) b with
    | none => none
    | some (ws, b) =>
      match readLE 16 b with
      | none => none
      | some (t, b) => if b = [] then some (ops, ws, t) else none

/-- `(vector<vector<u8>>, vector<u128>, u128, vector<vector<u8>>)`: operators, weights, quorum, signatures -/
def decodeProof (b : Bytes) : Option (List Bytes × List Nat × Nat × List Bytes) :=
  match readVec readBytes b with
  | none => none
  | some (ops, b) =>
    match readVec (readLE 16) b with
    | none => none
    | some (ws, b) =>
      match readLE 16 b with
      | none => none
      | some (t, b) =>
        match readVec readBytes b with
        | none => none
        | some (sigs, b) => if b = [] then some (ops, ws, t, sigs) else none

/-- `(vector<u8>, vector<u8>)`: data and proof -/
def decodeInput (b : Bytes) : Option (Bytes × Bytes) :=
  match readBytes b with
  | none => none
  | some (d, b) =>
    match readBytes b with
    | none => none
    | some (p, b) => if b = [] then some (d, p) else none

end Amp.Encoding.Bcs
