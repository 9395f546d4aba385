import Verif.Wire.MsgProps
import Verif.Wire.Examples
import Verif.Chain.Example

/-!
# Concrete cases for C95
-/

namespace Amp.Wire

open Amp.Router (ChainName CCId Message)
open Amp.Chain (Msg Tx Entry exP exSetup exTxs eth sui svc exNexus exMsg1)

def exTexture : Texture := ⟨exFinite, Router.asciiLower, exTexts, ⟨5, 1, some 10, "d".toList⟩⟩

theorem ex_sound : Sound exTexture := ⟨ex_faithful, by decide, by decide, fun k hk => by cases hk; decide⟩

theorem exP_bytes : ∀ b, IsBytes (exP.X.keccak b) := by
  intro b x hx
  have hx : x ∈ Prover.polyHash b := hx
  simp only [Prover.polyHash, List.mem_map, List.mem_range] at hx
  obtain ⟨i, _, rfl⟩ := hx
  exact Nat.mod_lt _ (by decide)

theorem exSetup_typed : SetupTyped exTexture.L exSetup := by
  refine ⟨fun a cfg sv kt h => ?_, fun a cfg h => ?_⟩
  · have : cfg.chainName = sui := by
      unfold exSetup at h
      split at h <;> first | (cases h; rfl) | (cases h; done)
    rw [this]
    exact ⟨by decide, by decide, rfl⟩
  · have : cfg.sourceChain = eth ∨ cfg.sourceChain = sui := by
      unfold exSetup at h
      split at h <;> first | (cases h; exact Or.inl rfl) | (cases h; exact Or.inr rfl) | (cases h; done)
    rcases this with e | e <;> rw [e] <;> exact ⟨by decide, by decide, rfl⟩

/-! messages and their texts -/

example : write exTexture (.verifier (.vote 3 [.succeededOnChain, .notFound])) =
    "{\"vote\":{\"poll_id\":\"3\",\"votes\":[\"succeeded_on_chain\",\"not_found\"]}}".toList := by decide +kernel

example : write exTexture (.multisig (.submitSignature 3 [1, 171])) =
    "{\"submit_signature\":{\"session_id\":\"3\",\"signature\":\"01ab\"}}".toList := by decide +kernel

example : write exTexture (.prover .updateWorkerSet) = "\"update_worker_set\"".toList := by decide +kernel

example : write exTexture (.router (.freezeChain eth .bidirectional)) =
    "{\"freeze_chain\":{\"chain\":\"eth\",\"direction\":\"Bidirectional\"}}".toList := by decide +kernel

example : write exTexture (.rewards (.updateParams ⟨100, 1000, ⟨1, 2⟩⟩)) =
    ("{\"update_params\":{\"params\":{\"epoch_duration\":\"100\",\"rewards_per_epoch\":\"1000\"," ++
      "\"participation_threshold\":[\"1\",\"2\"]}}}").toList := by decide +kernel

example : write exTexture (.route [exMsg1]) =
    ("{\"route_messages\":[{\"cc_id\":{\"chain\":\"eth\",\"id\":\"0xab:1\"},\"source_address\":\"0xs\"," ++
      "\"destination_chain\":\"sui\",\"destination_address\":\"" ++ String.ofList Prover.exAddress ++
      "\",\"payload_hash\":\"0707070707070707070707070707070707070707070707070707070707070707\"}]}").toList := by
  decide +kernel

/-! texts, written by hand, and what is read: white space, another order of the fields and other cases are fine, unknown
fields, numbers out of range, empty ids and messages of other contracts are not -/

example : readFor exTexture .verifier " { \"vote\" : { \"votes\" : [ \"failed_on_chain\" ] , \"poll_id\" : \"3\" } } ".toList =
    some (.verifier (.vote 3 [.failedOnChain])) := by decide +kernel

example : readFor exTexture .verifier "{\"vote\":{\"votes\":[],\"poll_id\":\"3\",\"x\":1}}".toList = none := by decide +kernel

example : readFor exTexture .verifier "{\"vote\":{\"votes\":[],\"poll_id\":3}}".toList = none := by decide +kernel

example : readFor exTexture .verifier "{\"end_poll\":{\"poll_id\":\"18446744073709551616\"}}".toList = none := by
  decide +kernel

example : readFor exTexture .router "{\"register_chain\":{\"chain\":\"ETH\",\"gateway_address\":\"axelar113\"}}".toList =
    some (.router (.registerChain eth 13)) := by decide +kernel

example : readFor exTexture .rewards
    "{\"record_participation\":{\"event_id\":\"\",\"worker_address\":\"axelar15\"}}".toList = none := by decide +kernel

example : readFor exTexture .gateway "\"update_worker_set\"".toList = none := by decide +kernel

/-! ### Zero is taken for a value that must not be zero -/

/-- The parameters of the rewards contract are read with `rewards_per_epoch` zero, although its type is a `nonempty` one; the
duration of an epoch is not. -/
theorem C95_zero_counterexample :
    readFor exTexture .rewards ("{\"update_params\":{\"params\":{\"epoch_duration\":\"100\",\"rewards_per_epoch\":\"0\"," ++
      "\"participation_threshold\":[\"1\",\"2\"]}}}").toList = some (.rewards (.updateParams ⟨100, 0, ⟨1, 2⟩⟩)) ∧
    readFor exTexture .rewards ("{\"update_params\":{\"params\":{\"epoch_duration\":\"0\",\"rewards_per_epoch\":\"1\"," ++
      "\"participation_threshold\":[\"1\",\"2\"]}}}").toList = none := by
  decide +kernel

/-! ### A history -/

/-- `RouteMessages` given as `route` -/
def plain (m : Msg) : Msg :=
  match routed m with
  | some ms => .route ms
  | none => m

/-- the history of `Chain/Example.lean` -/
def exPlainTxs : List Tx := exTxs.map (fun tx => { tx with msgs := tx.msgs.map (fun m => (m.1, m.2.1, plain m.2.2)) })

def exTextTxs : List TextTx := exPlainTxs.map (written exTexture)

example : (textLog exTexture exP exSetup exTextTxs).map (fun e => (e.p.sender, e.p.target)) =
    [(1, 10), (5, 10), (6, 10), (7, 10), (5, 10), (6, 10), (7, 10), (1, 10), (1, 14), (1, 14), (1, 18), (5, 18),
      (6, 18), (7, 18), (9, 19), (19, 18),
      (9, 13), (13, 12), (9, 13), (5, 12), (6, 12), (9, 13), (13, 14), (14, 17), (14, 15),
      (2, 15), (15, 14), (14, 17),
      (9, 19), (19, 18), (5, 18), (18, 11), (7, 18), (18, 11), (9, 12), (12, 11), (12, 11)] := by
  decide +kernel

/-- what a transaction of the example says is read by its recipient as it was meant -/
theorem exPlain_read : ∀ tx ∈ exPlainTxs, ∀ m ∈ tx.msgs,
    (partyAt exSetup m.1).bind (fun k => readFor exTexture k (write exTexture m.2.2)) = some m.2.2 := by
  decide +kernel

theorem exPlain_typed : ∀ tx ∈ exPlainTxs, ∀ m ∈ tx.msgs,
    Typed exTexture.L m.2.2 ∧ ∀ ms, routed m.2.2 = some ms → m.2.2 = .route ms := by
  intro tx htx m hm
  have h := exPlain_read tx htx m hm
  cases hk : partyAt exSetup m.1 with
  | none => rw [hk] at h; cases h
  | some k =>
    rw [hk] at h
    refine ⟨(C95_typed k _ _ h).1, fun ms hms => ?_⟩
    obtain ⟨tx', _, rfl⟩ := List.mem_map.mp htx
    obtain ⟨m', _, rfl⟩ := List.mem_map.mp hm
    revert hms
    show routed (plain m'.2.2) = some ms → plain m'.2.2 = .route ms
    unfold plain
    cases hr : routed m'.2.2 with
    | some ms' => intro h; cases h; rfl
    | none => intro h; rw [show routed m'.2.2 = some ms from h] at hr; cases hr

theorem exText_range : ∀ t ∈ exTextTxs, InRange t := by
  have h : ∀ t ∈ exTextTxs, t.block.height ≤ u64Max ∧ t.block.time ≤ u64Max ∧
      ∀ m ∈ t.msgs, ∀ c ∈ m.2.1, c.2 ≤ u128Max := by decide +kernel
  exact fun t ht => ⟨(h t ht).1, (h t ht).2.1, (h t ht).2.2⟩

/-- what happens to the texts is what happens to the messages -/
theorem exText_world {P : Chain.Params} (hX : ∀ b, IsBytes (P.X.keccak b)) :
    textWorldAfter exTexture P exSetup exTextTxs = Chain.worldAfter P exSetup exPlainTxs :=
  (C95_written ex_sound hX exSetup_typed exPlainTxs (fun tx htx => (exText_range _ (List.mem_map.mpr ⟨tx, htx, rfl⟩)))
    exPlain_typed).1

theorem exText_log {P : Chain.Params} (hX : ∀ b, IsBytes (P.X.keccak b)) :
    textLog exTexture P exSetup exTextTxs = Chain.log P exSetup exPlainTxs :=
  (C95_written ex_sound hX exSetup_typed exPlainTxs (fun tx htx => (exText_range _ (List.mem_map.mpr ⟨tx, htx, rfl⟩)))
    exPlain_typed).2

/-- the same for other transactions, if their recipients read the messages as they are meant -/
theorem exWritten {P : Chain.Params} (hX : ∀ b, IsBytes (P.X.keccak b)) {txs : List Tx}
    (hb : ∀ t ∈ txs.map (written exTexture), t.block.height ≤ u64Max ∧ t.block.time ≤ u64Max ∧
      ∀ m ∈ t.msgs, ∀ c ∈ m.2.1, c.2 ≤ u128Max)
    (hr : ∀ tx ∈ txs, ∀ m ∈ tx.msgs,
      (partyAt exSetup m.1).bind (fun k => readFor exTexture k (write exTexture m.2.2)) = some m.2.2)
    (hp : ∀ tx ∈ txs, ∀ m ∈ tx.msgs, plain m.2.2 = m.2.2) :
    textWorldAfter exTexture P exSetup (txs.map (written exTexture)) = Chain.worldAfter P exSetup txs ∧
      textLog exTexture P exSetup (txs.map (written exTexture)) = Chain.log P exSetup txs := by
  refine C95_written ex_sound hX exSetup_typed txs (fun tx htx => ?_) (fun tx htx m hm => ?_)
  · have := hb _ (List.mem_map.mpr ⟨tx, htx, rfl⟩)
    exact ⟨this.1, this.2.1, this.2.2⟩
  · have h := hr tx htx m hm
    cases hk : partyAt exSetup m.1 with
    | none => rw [hk] at h; cases h
    | some k =>
      rw [hk] at h
      refine ⟨(C95_typed k _ _ h).1, fun ms hms => ?_⟩
      have := hp tx htx m hm
      unfold plain at this
      rw [hms] at this
      exact this.symm

end Amp.Wire
