import Verif.Proto.TxProps
import Verif.Wire.MsgExamples

/-!
# C99: cases
-/

namespace Amp.Proto

open Amp.Ampd (BroadcastCfg Replies Client broadcast broadcasts)

/-- an account -/
def exAccount : Account := ⟨"axelar-dojo-1".toList, 7, .secp256k1 (2 :: List.replicate 32 17), "uaxl".toList⟩

/-- messages: the second has no value -/
def exMsgs : List AnyMsg := [⟨"/a".toList, [1, 2, 200]⟩, ⟨"/b".toList, []⟩]

/-- a signature that shows what was signed -/
def exSigner : ByteList → Option ByteList := fun d => some (d.take 4)

/-- a transaction -/
def exTx : Ampd.Tx AnyMsg := ⟨exMsgs, 300, 15, 20⟩

/-- the bytes that are submitted: body, then signer and fee, then the signature -/
example : exAccount.submit id exSigner exTx = some (
    [10, 17] ++ [10, 9, 10, 2, 47, 97, 18, 3, 1, 2, 200] ++ [10, 4, 10, 2, 47, 98] ++ [18, 99] ++
    [10, 80] ++ [10, 70] ++ ([10, 31] ++ utf8Bytes "/cosmos.crypto.secp256k1.PubKey".toList) ++
      ([18, 35] ++ [10, 33, 2] ++ List.replicate 32 17) ++ [18, 4, 10, 2, 8, 1] ++ [24, 20] ++
    [18, 15] ++ ([10, 10] ++ ([10, 4] ++ utf8Bytes "uaxl".toList) ++ [18, 2, 49, 53]) ++ [16, 172, 2] ++
    [26, 4, 10, 17, 10, 9]) := by decide +kernel

/-- what a node reads (`C99_node_reads`) -/
example : (exAccount.submit id exSigner exTx).bind nodeReads =
    some ⟨exMsgs, [], 0, [⟨some exAccount.key.any, 1, 20⟩], [⟨"uaxl".toList, 15⟩], 300, [], [], [[10, 17, 10, 9]]⟩ := by
  decide +kernel

/-- without a signature nothing is submitted -/
example : exAccount.submit id (fun _ => none) exTx = none := by decide +kernel

/-- the sign bytes depend on chain id and account number (`C99_one_signature`, `C99_sign_bytes`) -/
example : ((exAccount.submit id exSigner exTx).bind (nodeSignBytes "axelar-dojo-1".toList 7)).isSome ∧
    (exAccount.submit id exSigner exTx).bind (nodeSignBytes "axelar-dojo-1".toList 7) ≠
      (exAccount.submit id exSigner exTx).bind (nodeSignBytes "axelar-dojo-1".toList 8) ∧
    (exAccount.submit id exSigner exTx).bind (nodeSignBytes "axelar-dojo-1".toList 7) ≠
      (exAccount.submit id exSigner exTx).bind (nodeSignBytes "axelar-2".toList 7) := by decide +kernel

/-- bytes of someone else that differ but are checked against the same sign bytes: fields in another order and another
signature, read as the same transaction -/
def exOther : ByteList := match (exAccount.tx exTx).signWith exAccount.chainId 7 exSigner with
  | none => []
  | some t => write (many 3 [[9]] ++ raw 2 t.auth ++ raw 1 t.body)

example : (exAccount.submit id exSigner exTx) ≠ some exOther ∧
    nodeSignBytes "axelar-dojo-1".toList 7 exOther = some ((exAccount.tx exTx).signBytes exAccount.chainId 7) ∧
    nodeReads exOther =
      some ⟨exMsgs, [], 0, [⟨some exAccount.key.any, 1, 20⟩], [⟨"uaxl".toList, 15⟩], 300, [], [], [[9]]⟩ := by decide +kernel

/-- a history (`C99_fresh`): a transaction that is not found, then the same again, found, then the same again -/
def exHistory : List (List AnyMsg × Replies) :=
  [(exMsgs, ⟨some 300, true, true, fun _ => .notFound⟩), (exMsgs, ⟨some 300, true, true, fun _ => .found 0⟩),
    (exMsgs, ⟨some 300, true, true, fun _ => .found 0⟩)]

example : (broadcasts ⟨2, fun g => min g u64Max, fun g => g / 20, 1000⟩ ⟨20, []⟩ exHistory).sent =
    [⟨exMsgs, 300, 15, 20⟩, ⟨exMsgs, 300, 15, 20⟩, ⟨exMsgs, 300, 15, 21⟩] ∧
    ((exAccount.tx ⟨exMsgs, 300, 15, 20⟩).signBytes exAccount.chainId 7).length = 137 := by decide +kernel

example : ∀ g, (fun g => min g u64Max) g ≤ u64Max := fun _ => Nat.min_le_right _ _

/-- simulation -/
example : (exAccount.simulated exMsgs 20).bind nodeReads =
    some ⟨exMsgs, [], 0, [⟨some exAccount.key.any, 1, 20⟩], [⟨[], 0⟩], 0, [], [], [List.replicate 64 0]⟩ := by decide +kernel

/-- a message to a contract, with funds -/
def exExecute : ExecuteMsg := ⟨"axelar1w".toList, "axelar1c".toList, utf8Bytes "{}".toList, [⟨"uaxl".toList, 100⟩]⟩

example : readExecute exExecute.any = some exExecute ∧ exExecute.any.value.length = 37 := by decide +kernel

/-- a ballot of the worker 1, for the verifier 10 (`C99_contracts_read`) -/
def exBallot : Chain.Pending := ⟨1, 10, [], .verifier (.vote 3 [.succeededOnChain, .notFound])⟩

example : ∃ b, exAccount.submit id exSigner ⟨[(executeOf Wire.exTexture exBallot).any], 300, 15, 20⟩ = some b ∧
    b.length ≤ u64Max ∧ (nodeReads b).map (fun v => v.msgs.map (fun m => (readExecute m).bind (delivered Wire.exTexts))) =
      some [some ⟨1, 10, [], "{\"vote\":{\"poll_id\":\"3\",\"votes\":[\"succeeded_on_chain\",\"not_found\"]}}".toList⟩] :=
  ⟨_, rfl, by decide +kernel, by decide +kernel⟩

end Amp.Proto
