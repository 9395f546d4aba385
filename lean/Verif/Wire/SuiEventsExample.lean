import Verif.Wire.SuiEventsProps

/-!
# C112 in concrete cases
-/

namespace Amp.Wire

open Amp.Encoding (Bytes)
open Amp.Std (Vote)
open Amp.Ampd.Sui

/-- what a node shows for a contract call -/
def exSuiShown : Json :=
  shownCall (List.replicate 32 5) "Polygon".toList "0xabc".toList [1, 2, 3] (List.replicate 32 8)

/-- the hypotheses of `C112_shown` hold -/
theorem exSuiShown_says : SaysSuiCall exSuiShown
    ⟨List.replicate 32 5, "Polygon".toList, "0xabc".toList, List.replicate 32 8⟩ :=
  (C112_shown (fun _ => true) _ _ _ _ _ (by decide) (by unfold IsBytes; decide) (by decide) (by unfold IsBytes; decide)
    (by unfold IsBytes; decide)).1

/-- capital digits, no `0x` and another order of the fields; of two fields with the same name the last counts -/
def exSuiOdd : Json := .obj [
  ("payload_hash".toList, .str (List.replicate 64 'A')), ("destination_chain".toList, .str "ethereum".toList),
  ("source_id".toList, .str ("0x".toList ++ List.replicate 64 'f')), ("destination_chain".toList, .str "Polygon".toList),
  ("destination_address".toList, .str "0xabc".toList)]

example : SaysSuiCall exSuiOdd
    ⟨List.replicate 32 255, "Polygon".toList, "0xabc".toList, List.replicate 32 170⟩ :=
  (C112_call _ _).mp (by decide +kernel)

/-- an address with a digit too few says nothing, nor do hashes that are shown as numbers -/
example (c : ContractCall) : ¬ SaysSuiCall (.obj [
    ("payload_hash".toList, .str (List.replicate 64 'A')), ("destination_chain".toList, .str "Polygon".toList),
    ("source_id".toList, .str ("0x".toList ++ List.replicate 63 'f')),
    ("destination_address".toList, .str "0xabc".toList)]) c ∧
    ¬ SaysSuiCall (.arr [.str (List.replicate 64 'A'), .str "Polygon".toList, .str "0xabc".toList,
      .arr ((List.replicate 32 8).map .nat)]) c := by
  rw [← C112_call, ← C112_call]
  constructor
  · have h : (suiJson.contractCall (.obj [
        ("payload_hash".toList, .str (List.replicate 64 'A')), ("destination_chain".toList, .str "Polygon".toList),
        ("source_id".toList, .str ("0x".toList ++ List.replicate 63 'f')),
        ("destination_address".toList, .str "0xabc".toList)])) = none := by decide +kernel
    rw [h]
    simp
  · have h : (suiJson.contractCall (.arr [.str (List.replicate 64 'A'), .str "Polygon".toList, .str "0xabc".toList,
      .arr ((List.replicate 32 8).map .nat)])) = none := by decide +kernel
    rw [h]
    simp

/-- `u8` is at most 255 -/
example : suiTransfer (shownTransfer [255, 0]) = some [255, 0] ∧ suiTransfer (shownTransfer [256]) = none := by
  decide +kernel

/-- a block with two events: the same contents from the gateway package and from another one -/
def exSuiBlock : TxBlock Json :=
  ⟨[7], some 3, some [⟨0, ⟨[9], "gateway".toList, "ContractCall".toList, []⟩, exSuiShown⟩,
    ⟨1, ⟨[8], "gateway".toList, "ContractCall".toList, []⟩, exSuiShown⟩]⟩

def exSuiMsg : Message :=
  ⟨[7], 0, "0xabc".toList, "polygon".toList, List.replicate 32 5, List.replicate 32 8⟩

def exSuiPoll : PollStarted (List Message) :=
  ⟨10, 1, [9], [exSuiMsg, { exSuiMsg with eventIndex := 1 }, { exSuiMsg with destinationAddress := "0xabd".toList }],
    [1, 2], 50⟩

def exSuiEnv : Env Json :=
  ⟨40, ⟨fun _ => none, fun ds => if ds = [[7]] then some [exSuiBlock] else none⟩, true, List.eraseDups⟩

theorem exSuiSent : (handleMessages Router.asciiLower suiJson (fun _ : Nat => some exSuiPoll) ⟨1, 10⟩ exSuiEnv
    (.abci ⟨"wasm-messages_poll_started".toList, 0⟩)).sent =
    [⟨1, 10, .vote 1 [.succeededOnChain, .notFound, .notFound]⟩] := by decide +kernel

/-- the hypotheses of `C112_voted` hold -/
example : ∃ b, ShowsSuiCall Router.asciiLower [9] b exSuiMsg := by
  obtain ⟨_, _, b, _, h⟩ := C112_voted Router.asciiLower (fun _ : Nat => some exSuiPoll) ⟨1, 10⟩ exSuiEnv _ exSuiPoll
    ⟨"wasm-messages_poll_started".toList, 0⟩ rfl rfl ⟨1, 10, .vote 1 [.succeededOnChain, .notFound, .notFound]⟩ 1
    [.succeededOnChain, .notFound, .notFound] (by rw [exSuiSent]; simp) rfl 0 exSuiMsg rfl rfl
  exact ⟨b, h⟩

theorem exSuiHonest : Honest exSuiEnv.node (exSuiEnv.order (exSuiPoll.content.map Message.txId)) := by
  have ho : exSuiEnv.order (exSuiPoll.content.map Message.txId) = [[7]] := by decide +kernel
  rw [ho]
  refine ⟨[exSuiBlock], rfl, rfl, by decide +kernel, ?_⟩
  intro b hb es hes
  simp only [List.mem_singleton] at hb
  subst hb
  simp only [exSuiBlock, Option.some.injEq] at hes
  subst hes
  simp

/-- the block shows the message -/
theorem exSuiShows : ShowsSuiCall Router.asciiLower [9] exSuiBlock exSuiMsg :=
  ⟨rfl, rfl, _, rfl, ⟨0, ⟨[9], "gateway".toList, "ContractCall".toList, []⟩, exSuiShown⟩, by simp, rfl, rfl,
    "Polygon".toList, by decide +kernel, exSuiShown_says⟩

/-- `List.eraseDups` goes through the elements of the list -/
theorem eraseDups_iterates : Ampd.Evm.Iterates List.eraseDups := fun _ _ => List.mem_eraseDups

/-- the hypotheses of `C112_votes` hold -/
example : ([Vote.succeededOnChain, .notFound, .notFound] : List Vote)[0]? = some .succeededOnChain :=
  (C112_votes Router.asciiLower (fun _ : Nat => some exSuiPoll) ⟨1, 10⟩ exSuiEnv _ exSuiPoll
    ⟨"wasm-messages_poll_started".toList, 0⟩ rfl rfl eraseDups_iterates exSuiHonest
    ⟨1, 10, .vote 1 [.succeededOnChain, .notFound, .notFound]⟩ 1
    [.succeededOnChain, .notFound, .notFound] (by rw [exSuiSent]; simp) rfl 0 exSuiMsg rfl [exSuiBlock]
    (by
      have ho : exSuiEnv.order (exSuiPoll.content.map Message.txId) = [[7]] := by decide +kernel
      rw [ho]
      rfl)).1 ⟨exSuiBlock, by simp, exSuiShows⟩

/-- the bytes of two operators -/
def exSuiOperators : Bytes :=
  match operatorsData exSet with
  | .ok b => b
  | .error _ => []

def exSuiSetBlock : TxBlock Json :=
  ⟨[7], some 3, some [⟨0, ⟨[9], "validators".toList, "OperatorshipTransferred".toList, []⟩, shownTransfer exSuiOperators⟩]⟩

/-- the hypotheses of `C112_votes_worker_set` hold -/
theorem exSuiSetSent : (handleWorkerSet suiJson (fun _ : Nat => some ⟨10, 1, [9], exSet, [1, 2], 50⟩) ⟨1, 10⟩
    ⟨40, ⟨fun _ => some exSuiSetBlock, fun _ => none⟩, true, id⟩
    (.abci ⟨"wasm-worker_set_poll_started".toList, 0⟩)).sent =
    [⟨1, 10, .vote 1 [.succeededOnChain]⟩] :=
  C112_votes_worker_set _ _ _ _ ⟨10, 1, [9], exSet, [1, 2], 50⟩
    ⟨⟨_, rfl, rfl, rfl⟩, rfl, by simp, by decide⟩ exSuiSetBlock rfl
    (by
      intro es hes
      simp only [exSuiSetBlock, Option.some.injEq] at hes
      subst hes
      simp) rfl rfl _ rfl _ (List.mem_singleton.mpr rfl) rfl rfl exSuiOperators
    (C112_shown_transfer (fun _ => true) _ (by unfold IsBytes; decide +kernel)).1 (by decide +kernel)

/-- the hypotheses of `C112_voted_worker_set` hold -/
example : ∃ b, ShowsSuiTransfer [9] b exSet := by
  obtain ⟨b, _, h⟩ := C112_voted_worker_set (fun _ : Nat => some ⟨10, 1, [9], exSet, [1, 2], 50⟩) ⟨1, 10⟩
    ⟨40, ⟨fun _ => some exSuiSetBlock, fun _ => none⟩, true, id⟩ _ ⟨10, 1, [9], exSet, [1, 2], 50⟩
    ⟨"wasm-worker_set_poll_started".toList, 0⟩ rfl rfl (by unfold WorkerSet.Valid; decide)
    ⟨1, 10, .vote 1 [.succeededOnChain]⟩ 1 [.succeededOnChain] (by rw [exSuiSetSent]; simp) rfl (by simp)
  exact ⟨b, h⟩

end Amp.Wire
