import Verif.Ampd.EvmLogProps
import Verif.Wire.Base64

/-!
# C110 in concrete cases
-/

namespace Amp.Ampd.Evm

open Amp.Encoding (Bytes)
open Amp.Encoding.Abi (ethabiEncode)
open Amp.Std (Vote)

/-- a toy hash, and one character for a name that is not UTF-8 -/
def exLib : LogLib where
  keccak b := Encoding.be 32 (b.foldl (fun h x => (h * 65537 + x + 1) % (2 ^ 127 - 1)) 0)
  lossy b := match Wire.decodeUtf8 b with
    | some s => if utf8Bytes s = b then s else [Char.ofNat 0xFFFD]
    | none => [Char.ofNat 0xFFFD]
  lossy_utf8 s := by
    rw [Wire.decodeUtf8_utf8Bytes]
    simp
  lossy_bad b h := by
    cases hd : Wire.decodeUtf8 b with
    | none => simp
    | some s =>
      simp only
      rw [if_neg (fun e => h s e.symm)]
      simp

/-- the log of a contract call -/
def callLog (chain address payload : Bytes) : RawLog where
  topics := [exLib.topic contractCallText, List.replicate 12 0 ++ List.replicate 20 5, List.replicate 32 8]
  data := match ethabiEncode [.elem (.bytes chain), .elem (.bytes address), .elem (.bytes payload)] with
    | .ok b => b
    | .error _ => []

def exCallLog : RawLog := callLog (utf8Bytes "Polygon".toList) (utf8Bytes "0xabc".toList) [1, 2, 3]

/-- the hypothesis of `C110_call` holds -/
theorem exWritten : WrittenCall exLib.keccak (List.replicate 20 5) (utf8Bytes "Polygon".toList)
    (utf8Bytes "0xabc".toList) (List.replicate 32 8) [1, 2, 3] exCallLog := by
  refine ⟨by simp, by simp, rfl, by decide +kernel⟩

example : decodeLog exLib exCallLog =
    some (.contractCall (List.replicate 20 5) "Polygon".toList "0xabc".toList (List.replicate 32 8)) :=
  C110_call exLib _ _ _ _ _ _ exWritten

/-- the hypothesis of `C110_transfer` holds -/
theorem exTopicsApart : TopicsApart exLib.keccak := by
  unfold TopicsApart
  decide +kernel

example : ∃ l, WrittenTransfer exLib.keccak [1, 2, 3] l :=
  ⟨⟨_, match ethabiEncode [.elem (.bytes [1, 2, 3])] with | .ok b => b | .error _ => []⟩, rfl, by decide +kernel⟩

/-- a receipt with two logs of the gateway, the second of which is the call -/
def exRawReceipt : Receipt RawLog :=
  ⟨[7], some 80, [⟨[9], ⟨[exLib.topic "Executed(bytes32)".toList, List.replicate 32 0], []⟩, some [7], some 3⟩,
    ⟨[9], exCallLog, some [7], some 4⟩]⟩

def exRawNode : Node RawLog where
  finalizedBlock := some (some 90)
  blockNumber := some 100
  receipt h := if h = [7] then some (some exRawReceipt) else some none

def exCallMsg : Message := ⟨[7], 4, "0xabc".toList, "polygon".toList, List.replicate 20 5, List.replicate 32 8⟩

def exRawPoll : PollStarted (List Message) :=
  ⟨10, 1, "ethereum".toList, [9], 3, 50, [exCallMsg, { exCallMsg with payloadHash := List.replicate 32 9 }], [1, 2]⟩

/-- what the handler sends -/
def exRawSent : List ExecTx :=
  (handleMessages Router.asciiLower (decodeLog exLib) (fun _ => some exRawPoll) exHandler ⟨40, exRawNode, true, id⟩
    exEvent).sent

theorem exWrote : WroteCall exLib.keccak Router.asciiLower [9] exRawReceipt exCallMsg :=
  ⟨rfl, ⟨[9], exCallLog, some [7], some 4⟩, by simp [exRawReceipt], rfl, rfl, rfl, "Polygon".toList, [1, 2, 3],
    by decide +kernel, exWritten⟩

theorem exRawSent_eq : exRawSent = [⟨1, 10, .vote 1 [.succeededOnChain, .notFound]⟩] := by decide +kernel

theorem exRawBounded : Bounded exRawNode := by
  constructor <;> intro x hx <;> (simp [exRawNode] at hx; subst hx; decide)

theorem exRawHonest : Honest exRawNode := by
  intro h r hr
  simp only [exRawNode] at hr
  split at hr
  · simp only [Option.some.injEq] at hr
    subst hr
    subst_vars
    refine ⟨rfl, ?_⟩
    unfold DistinctLogs exRawReceipt
    simp
  · simp at hr

theorem exRawWords : WordLogs exRawNode := by
  intro h r hr
  simp only [exRawNode] at hr
  split at hr
  · simp only [Option.some.injEq] at hr
    subst hr
    unfold Words
    decide +kernel
  · simp at hr

/-- the hypotheses of `C110_votes` hold for the first message of the poll -/
example : ([Vote.succeededOnChain, .notFound] : List Vote)[0]? = some .succeededOnChain :=
  C110_votes exLib Router.asciiLower (fun _ => some exRawPoll) exHandler ⟨40, exRawNode, true, id⟩ exEvent exRawBounded
    exRawHonest (fun _ _ => Iff.rfl) exRawPoll ⟨"wasm-messages_poll_started".toList, 0⟩ rfl rfl
    ⟨1, 10, .vote 1 [.succeededOnChain, .notFound]⟩ 1 _ (by
      have h := exRawSent_eq
      unfold exRawSent at h
      rw [h]
      simp) rfl 0 exCallMsg rfl exRawReceipt 80 rfl rfl ⟨90, rfl, by decide⟩ exWrote

/-- the hypotheses of `C110_voted` and `C110_bytes_partial` hold for it -/
example : ∃ r : Receipt RawLog, ∃ l ∈ r.logs, l.index = some 4 ∧ l.address = [9] ∧ ∃ chain,
    Router.asciiLower.f chain = "polygon".toList ∧ SaysCall exLib.keccak l.content (List.replicate 20 5)
      (utf8Bytes chain) (utf8Bytes "0xabc".toList) (List.replicate 32 8) := by
  obtain ⟨_, r, _, _, _, _, h⟩ :=
    C110_voted exLib Router.asciiLower (fun _ => some exRawPoll) exHandler ⟨40, exRawNode, true, id⟩ exEvent exRawBounded
      exRawWords exRawPoll ⟨"wasm-messages_poll_started".toList, 0⟩ rfl rfl
      ⟨1, 10, .vote 1 [.succeededOnChain, .notFound]⟩ 1 _ (by
        have h := exRawSent_eq
        unfold exRawSent at h
        rw [h]
        simp) rfl 0 exCallMsg rfl rfl
  refine ⟨r, C110_bytes_partial exLib _ _ r exCallMsg h (by decide) ?_⟩
  intro s hs hmem
  have hc : Char.ofNat 0xFFFD ∈ (exCallMsg).destinationChain := by
    rw [← hs]
    exact List.mem_map.mpr ⟨_, hmem, by decide⟩
  revert hc
  decide

/-! ### The bytes of a log are not always those of the message -/

/-- a message whose destination address is the character that stands for what is not UTF-8 -/
def exOddMsg : Message := { exCallMsg with destinationAddress := [Char.ofNat 0xFFFD] }

/-- C110 is false byte for byte: a call to an address that is not UTF-8 is voted for as a call to another one, and two
different calls are voted for as the same. -/
theorem C110_counterexample :
    ∃ a b : Bytes, a ≠ b ∧ a ≠ utf8Bytes exOddMsg.destinationAddress ∧
      ∀ x ∈ [a, b], WrittenCall exLib.keccak exOddMsg.sourceAddress (utf8Bytes "Polygon".toList) x exOddMsg.payloadHash
          [1, 2, 3] (callLog (utf8Bytes "Polygon".toList) x [1, 2, 3]) ∧
        verifyMessage Router.asciiLower (decodeLog exLib) [9]
          ⟨[7], some 80, [⟨[9], callLog (utf8Bytes "Polygon".toList) x [1, 2, 3], some [7], some 4⟩]⟩ exOddMsg =
            .succeededOnChain := by
  refine ⟨[255], [254], by decide, by decide +kernel, ?_⟩
  intro x hx
  have hx' : x = [255] ∨ x = [254] := by simpa using hx
  rcases hx' with rfl | rfl
  · exact ⟨⟨by decide, by decide, rfl, by decide +kernel⟩, by decide +kernel⟩
  · exact ⟨⟨by decide, by decide, rfl, by decide +kernel⟩, by decide +kernel⟩

/-! ### Worker sets -/

/-- the contents of the event that transfers operatorship to `exSet` -/
def exOperatorsData : Bytes := match operatorsData exSet with
  | .ok b => b
  | .error _ => []

def exTransferLog : RawLog where
  topics := [exLib.topic operatorshipText]
  data := match ethabiEncode [.elem (.bytes exOperatorsData)] with
    | .ok b => b
    | .error _ => []

def exTransferNode : Node RawLog where
  finalizedBlock := none
  blockNumber := some 100
  receipt _ := some (some ⟨[7], some 80, [⟨[9], exTransferLog, some [7], some 0⟩]⟩)

def exTransferPoll : PollStarted WorkerSet := ⟨10, 1, "Polygon".toList, [9], 21, 50, exSet, [1, 2]⟩

theorem exTransferBounded : Bounded exTransferNode := by
  constructor <;> intro x hx <;> (simp [exTransferNode] at hx; try (subst hx; decide))

/-- the hypotheses of `C110_sets_voted` hold -/
theorem exTransferSent : (handleWorkerSet (decodeLog exLib) (fun _ => some exTransferPoll)
    ⟨1, 10, .other "polygon".toList⟩ ⟨40, exTransferNode, true, id⟩
    (.abci ⟨"wasm-worker_set_poll_started".toList, (0 : Nat)⟩)).sent = [⟨1, 10, .vote 1 [.succeededOnChain]⟩] :=
  C110_sets_voted exLib exTopicsApart (fun _ => some exTransferPoll) ⟨1, 10, .other "polygon".toList⟩
    ⟨40, exTransferNode, true, id⟩ (.abci ⟨"wasm-worker_set_poll_started".toList, (0 : Nat)⟩) exTransferBounded
    exTransferPoll ⟨⟨_, rfl, rfl, rfl⟩, rfl, by decide, by decide, by decide⟩ ⟨100, rfl, by decide⟩ _ 80 rfl
    (by unfold DistinctLogs; simp) rfl ⟨100, rfl, by decide⟩ rfl ⟨[9], exTransferLog, some [7], some 0⟩ exOperatorsData
    (by simp) rfl rfl rfl ⟨rfl, by decide +kernel⟩ (by decide +kernel)

/-- so do those of `C110_sets` -/
example : ∃ r, ShowsTransfer exLib.keccak [9] r exSet := by
  obtain ⟨r, _, _, _, _, h⟩ := C110_sets exLib (fun _ => some exTransferPoll) ⟨1, 10, .other "polygon".toList⟩
    ⟨40, exTransferNode, true, id⟩ (.abci ⟨"wasm-worker_set_poll_started".toList, (0 : Nat)⟩) exTransferBounded
    (by
      intro h r hr l hl
      simp only [exTransferNode, Option.some.injEq] at hr
      subst hr
      simp only [List.mem_singleton] at hl
      subst hl
      unfold Words
      decide +kernel) exTransferPoll ⟨_, 0⟩ rfl rfl
    (by unfold WorkerSet.Valid; decide) ⟨1, 10, .vote 1 [.succeededOnChain]⟩ 1 _ (by rw [exTransferSent]; simp) rfl
    (by simp)
  exact ⟨r, h⟩

end Amp.Ampd.Evm
