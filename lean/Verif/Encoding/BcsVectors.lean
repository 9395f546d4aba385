import Verif.Encoding.BcsProps

/-!
# The BCS model on the vector of `contracts/multisig-prover/src/encoding/bcs.rs:508-573`

The input below was produced for the real gateway. Also the concrete cases of the theorems in
`BcsProps.lean`.
-/

namespace Amp.Encoding.Bcs.Vectors

open Amp.Multisig (Signature PublicKey Signer WorkerSet)

/-- the big endian bytes of a literal -/
def lit (n v : Nat) : Bytes := (le n v).reverse

/-- `bcs.rs:510` -/
def approvalInput : Bytes := (lit 405 0x8a02010000000000000002000000000000000000000000000000000000000000000000000000000000000100000000000000000000000000000000000000000000000000000000000000020213617070726f7665436f6e747261637443616c6c13617070726f7665436f6e747261637443616c6c0249034554480330783000000000000000000000000000000000000000000000000000000000000000002000000000000000000000000000000000000000000000000000000000000000004c064158454c415203307831000000000000000000000000000000000000000000000000000000000000000020000000000000000000000000000000000000000000000000000000000000000087010121037286a4f1177bea06c8e15cf6ec3df0b7747a01ac2329ca2999dfd74eff59902801640000000000000000000000000000000a0000000000000000000000000000000141ef5ce016a4beed7e11761e5831805e962fca3d8901696a61a6ffd3af2b646bdc3740f64643bdb164b8151d1424eb4943d03f71e71816c00726e2d68ee55600c600)

/-- `bcs.rs:512` -/
def zeroAddr : Str := List.replicate 64 '0'

/-- `bcs.rs:523-524` -/
def params1 : Except Err Bytes := commandParams "ETH".toList "0x0".toList zeroAddr (List.replicate 32 0)

/-- `bcs.rs:532-533` -/
def params2 : Except Err Bytes := commandParams "AXELAR".toList "0x1".toList zeroAddr (List.replicate 32 0)

/-- the bytes of a result -/
def get : Except Err Bytes → Bytes
  | .ok b => b
  | .error _ => []

/-- `bcs.rs:514-536` -/
def data : Data := ⟨1, [⟨be 32 1, .approveContractCall, get params1⟩, ⟨be 32 2, .approveContractCall, get params2⟩]⟩

/-- `bcs.rs:552-563` -/
def signers : List (Signer × Option Signature) :=
  [(⟨1, 100, .ecdsa (lit 33 0x037286a4f1177bea06c8e15cf6ec3df0b7747a01ac2329ca2999dfd74eff599028)⟩,
    some (.ecdsa (lit 64 0xef5ce016a4beed7e11761e5831805e962fca3d8901696a61a6ffd3af2b646bdc3740f64643bdb164b8151d1424eb4943d03f71e71816c00726e2d68ee55600c6)))]

/-- the hashes do not occur in the input; the recovery id is the one of the vector -/
def ext : Ext where
  keccak := fun _ => List.replicate 32 0
  wsHash := fun _ => List.replicate 32 0
  uncompress := fun _ => none
  parseH160 := fun _ => none
  recoveryId := fun _ _ _ => some 0
  keccak_length := fun _ => rfl
  wsHash_length := fun _ => rfl
  wsHash_bytes := fun _ x hx => by rw [List.eq_of_mem_replicate hx]; decide
  parseH160_length := fun _ _ h => by simp at h

/-- the encoder gives the recorded bytes -/
theorem execute_vector : encodeExecuteData ext data 10 signers = .ok approvalInput := by decide +kernel

/-- C61_execute_bcs on it -/
example : ∃ data' proof, decodeInput approvalInput = some (data', proof) ∧ decodeData data' = some data ∧
    (decodeProof proof).isSome := by
  obtain ⟨d, p, h1, _, h2, ops, h3, _⟩ := C61_execute_bcs ext data 10 signers approvalInput
    (List.replicate 32 0) (by decide +kernel) execute_vector
  exact ⟨d, p, h1, h2, by rw [h3]; rfl⟩

/-- C60_data_roundtrip on the data of the vector -/
example : ∃ b, encode data = .ok b ∧ decodeData b = some data := by
  have h : encode data = .ok (get (encode data)) := by decide +kernel
  exact ⟨_, h, C60_data_roundtrip data _ h⟩

/-- C60_approval_roundtrip on the second command -/
example : decodeCommandParams (get params2) =
    some (utf8Bytes "AXELAR".toList, utf8Bytes "0x1".toList, List.replicate 32 0, List.replicate 32 0) := by
  have h : params2 = .ok (get params2) := by decide +kernel
  obtain ⟨a, h1, _, h2⟩ := C60_approval_roundtrip _ _ _ _ _ h
  have h3 : decodeHex (stripPrefix zeroAddr) = some (List.replicate 32 0) := by decide +kernel
  rw [h3] at h1
  simp only [Option.some.injEq] at h1
  rw [h2, ← h1]

/-- a destination that is not 32 bytes is refused (`bcs.rs:409-413`) -/
example : commandParams "Ethereum".toList "00".toList "01".toList (List.replicate 32 2) =
    .error .invalidMessage := by decide

/-- a chain id above 64 bits aborts (`bcs.rs:349-354`) -/
example : encode ⟨u128Max, []⟩ = .error .panic := by decide

/-- a command id of the wrong length aborts (`bcs.rs:361-365`) -/
example : encode ⟨1, [⟨List.replicate 30 0, .approveContractCall, []⟩]⟩ = .error .panic := by decide

/-- a worker set with keys not in the order of the map -/
def workerSet : WorkerSet := ⟨[(1, ⟨1, 10, .ecdsa [3, 7]⟩), (2, ⟨2, 300, .ecdsa [2, 9]⟩)], 200, 1⟩

/-- C61_transfer_bcs on it -/
example : transferOperatorshipParams workerSet = .ok ([2, 2, 2, 9, 2, 3, 7, 2] ++ le 16 300 ++ le 16 10 ++
      le 16 200) ∧
    decodeOperatorship ([2, 2, 2, 9, 2, 3, 7, 2] ++ le 16 300 ++ le 16 10 ++ le 16 200) =
      some ([[2, 9], [3, 7]], [300, 10], 200) := by decide +kernel

/-- C61_operators_bcs on it -/
example : (makeOperators workerSet).weights = [([2, 9], 300), ([3, 7], 10)] := by decide

end Amp.Encoding.Bcs.Vectors
