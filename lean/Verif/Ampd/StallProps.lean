import Verif.Ampd.BallotProps
import Verif.Ampd.DaemonProps

/-!
# C70: an event that cannot be decoded stops a handler for good

The handlers decode an event of their type completely before they look at the contract that emitted it
(`handlers/evm_verify_msg.rs:150-162`, `sui_verify_msg.rs:106-119` etc.), an error ends the handler's task
(`event_processor.rs:44-49`), and the block is not acknowledged, so that the next run starts with it again.
-/

namespace Amp.Ampd

open Amp.Router (ChainName Lowering)

variable {R A : Type}

/-- all events handed to a handler except the last have been handled without error -/
theorem consume_handled (items : List (Item A)) (rs : List HandleReply) (i : Nat)
    (h : i + 1 < (consume items rs).1.length) : ∃ rep, rs[i]? = some rep ∧ rep.handled = true := by
  induction items generalizing rs i with
  | nil => simp [consume] at h
  | cons it items ih =>
    cases rs with
    | nil => simp [consume] at h
    | cons r rs =>
      cases it with
      | lagged => simp [consume] at h
      | ok e =>
        unfold consume at h
        by_cases hr : (!r.handled) = true
        · rw [if_pos hr] at h; simp at h
        · rw [if_neg hr] at h
          have hr' : r.handled = true := by simpa using hr
          have step : i + 1 < (e :: (consume items rs).1).length →
              ∃ rep, (r :: rs)[i]? = some rep ∧ rep.handled = true := by
            intro hlt
            cases i with
            | zero => exact ⟨r, rfl, hr'⟩
            | succ i =>
              rw [List.getElem?_cons_succ]
              exact ih rs i (by simpa using hlt)
          cases e with
          | blockBegin b => exact step h
          | abci a => exact step h
          | blockEnd b =>
            simp only at h
            split at h
            · simp at h
            · split at h
              · simp at h
              · exact step h

/-- In a run, the replies recorded for a handler are true to what the handler does: `outcome e o` says that it
can end with outcome `o` when given `e`. -/
def Faithful (W : World R A) (outcome : Event A → Outcome → Prop) (f : StateFile) (r : Run) (l : Label) : Prop :=
  ∀ h ∈ r.handlers, h.1 = l → ∀ (i : Nat) (e : Event A) (rep : HandleReply),
    (handlerOut W f r l).1[i]? = some e → h.2.replies[i]? = some rep →
      ∃ o, outcome e o ∧ (rep.handled = true → o.succeeded)

/-- a block contains an event upon which the handler always fails -/
def Poisoned (W : World R A) (outcome : Event A → Outcome → Prop) (b : Nat) : Prop :=
  ∃ r a, r ∈ contents (W.chain b) ∧ W.decode r = some a ∧ ∀ o, outcome (.abci a) o → ¬ o.succeeded

theorem mem_frame {W : World R A} {b : Nat} {r : R} {a : A} (hr : r ∈ contents (W.chain b))
    (hd : W.decode r = some a) :
    ∃ (i : Nat), (frame W b)[i]? = some (.abci a) ∧ i + 1 < (frame W b).length := by
  have hm : Event.abci a ∈ ((contents (W.chain b)).filterMap W.decode).map Event.abci :=
    List.mem_map_of_mem (List.mem_filterMap.mpr ⟨r, hr, hd⟩)
  obtain ⟨i, hi⟩ := List.mem_iff_getElem?.mp hm
  refine ⟨i + 1, ?_, ?_⟩
  · unfold frame
    rw [List.getElem?_cons_succ, List.getElem?_append_left (List.getElem?_eq_some_iff.mp hi).1]
    exact hi
  · have := (List.getElem?_eq_some_iff.mp hi).1
    unfold frame
    simp only [List.cons_append, List.length_cons, List.length_append, List.length_nil] at this ⊢
    omega

theorem stream_nil (rc : List Recv) : ∀ it ∈ stream rc ([] : List (Event A)), it = .lagged := by
  induction rc with
  | nil => simp [stream]
  | cons r rc ih =>
    cases r with
    | deliver => simp [stream]
    | lag n =>
      intro it hit
      simp only [stream, List.drop_nil, List.mem_cons] at hit
      rcases hit with rfl | hit
      · rfl
      · exact ih it hit

theorem consume_lagged {items : List (Item A)} {rs : List HandleReply} (h : ∀ it ∈ items, it = .lagged) :
    consume items rs = ([], []) := by
  cases items with
  | nil => rfl
  | cons it items =>
    have := h it (by simp)
    subst this
    cases rs <;> rfl

theorem C70_stall_run (W : World R A) (outcome : Event A → Outcome → Prop) (f : StateFile) (r : Run) (l : Label)
    (s : Nat) (hs : startHeight (startFrom f) r.sub = some s) (hreg : NoRegress s r.sub.ticks)
    (hlag : NoLagWhileSkipping W f r l) (hf : Faithful W outcome f r l) (b : Nat)
    (hb : Poisoned W outcome b) : b ∉ (handlerOut W f r l).2 := by
  intro hmem
  obtain ⟨first, hfirst⟩ : ∃ first, first = match f.get? l with | some c => c + 1 | none => s := ⟨_, rfl⟩
  obtain ⟨k, N, h1, h2, _⟩ := C67_run W f r l s first hs hreg hlag hfirst
  rw [h1] at hmem
  obtain ⟨x, a, hx, hd, ho⟩ := hb
  obtain ⟨i, hi1, hi2⟩ := mem_frame hx hd
  -- position of the event in what was handed over
  have hpos : ∃ j, (handlerOut W f r l).1[j]? = some (.abci a) ∧ j + 1 < (handlerOut W f r l).1.length := by
    have hsplit : ∃ n m, k = n + (1 + m) ∧ b = first + n := by
      rw [List.mem_range'_1] at hmem
      exact ⟨b - first, k - (b - first) - 1, by omega, by omega⟩
    obtain ⟨n, m, rfl, rfl⟩ := hsplit
    have hblocks : blocks W first (n + (1 + m)) = blocks W first n ++ frame W (first + n) ++
        blocks W (first + n + 1) m := by
      unfold blocks
      rw [← List.range'_append_1 (m := n) (n := 1 + m), ← List.range'_append_1 (m := 1) (n := m)]
      simp
    rw [hblocks] at h2
    obtain ⟨rest, hrest⟩ := h2
    refine ⟨(blocks W first n).length + i, ?_, ?_⟩
    · rw [← hrest, List.append_assoc, List.append_assoc, List.getElem?_append_right (by omega),
        Nat.add_sub_cancel_left, List.getElem?_append_left (by omega)]
      exact hi1
    · rw [← hrest]
      simp only [List.length_append]
      omega
  obtain ⟨j, hj1, hj2⟩ := hpos
  unfold Faithful at hf
  unfold handlerOut at hj1 hj2 hf
  cases hfind : r.handlers.find? (fun h => decide (h.1 = l)) with
  | none => rw [hfind] at hj1; simp at hj1
  | some h =>
    rw [hfind] at hj1 hj2 hf
    simp only at hj1 hj2 hf
    have hl : h.1 = l := by simpa using List.find?_some hfind
    have hrep : ∃ rep, h.2.replies[j]? = some rep ∧ rep.handled = true := by
      unfold runHandler at hj2
      dsimp only at hj2
      split at hj2 <;> exact consume_handled _ _ _ hj2
    obtain ⟨rep, hr1, hr2⟩ := hrep
    obtain ⟨o, ho1, ho2⟩ := hf h (List.mem_of_find?_eq_some hfind) hl j _ rep hj1 hr1
    exact ho o ho1 (ho2 hr2)

theorem durableAcks_mem {W : World R A} {l : Label} {f : StateFile} {rs : List Run} {b : Nat}
    (h : b ∈ durableAcks W l f rs) : ∃ rs₁ r rs₂, rs = rs₁ ++ r :: rs₂ ∧
      b ∈ (handlerOut W (rs₁.foldl (fileAfter W) f) r l).2 := by
  induction rs generalizing f with
  | nil => simp [durableAcks] at h
  | cons r rs ih =>
    unfold durableAcks at h
    rcases List.mem_append.mp h with h | h
    · refine ⟨[], r, rs, rfl, ?_⟩
      split at h
      · exact h
      · simp at h
    · obtain ⟨rs₁, r', rs₂, rfl, h'⟩ := ih h
      exact ⟨r :: rs₁, r', rs₂, rfl, h'⟩

/-- In no history of runs is a block recorded as completed that contains an event upon which the handler
fails: however often the daemon is restarted, the handler gets stuck at that block, and no later poll of any
verifier is answered. -/
theorem C70_stall (W : World R A) (outcome : Event A → Outcome → Prop) (l : Label) (rs : List Run)
    (h : Sane W l [] rs) (hf : EachRun W (fun f r => Faithful W outcome f r l) [] rs) (b : Nat)
    (hb : Poisoned W outcome b) :
    b ∉ durableAcks W l [] rs ∧
      ∀ first ∈ (durableAcks W l [] rs).head?, first < b → ∀ c ∈ (fileAfterAll W rs).get? l, c < b := by
  have hnot : b ∉ durableAcks W l [] rs := by
    intro hmem
    obtain ⟨rs₁, r, rs₂, rfl, hr⟩ := durableAcks_mem hmem
    have happ : rs₁ ++ r :: rs₂ = (rs₁ ++ [r]) ++ rs₂ := by simp
    have h2 := (eachRun_append W _ [] rs₁ (r :: rs₂)).mp h.nolag
    have h3 := h.mono
    rw [happ, allReports_append] at h3
    have hf2 := (eachRun_append W _ [] rs₁ (r :: rs₂)).mp hf
    cases hs : startHeight (startFrom (rs₁.foldl (fileAfter W) [])) r.sub with
    | none =>
      have : (handlerOut W (rs₁.foldl (fileAfter W) []) r l).2 = [] := by
        unfold handlerOut
        split
        · rfl
        · unfold runHandler published runSub
          rw [hs]
          dsimp only
          split <;> rw [consume_lagged]
          · exact stream_nil _
          · exact fun it hit => stream_nil _ it (List.dropWhile_subset _ hit)
      rw [this] at hr
      simp at hr
    | some s =>
      have hreg := inv_run W rs₁ r [] 0 (by simp) (fun _ _ => Nat.zero_le _) (List.pairwise_append.mp h3).1 s hs
      exact C70_stall_run W outcome _ r l s hs hreg h2.2.1 hf2.2.1 b hb hr
  refine ⟨hnot, ?_⟩
  intro first hfirst hlt c hc
  obtain ⟨⟨first', k, h1⟩, h2⟩ := C67_contiguous_partial W l rs h
  rw [h2, h1] at hc
  rw [h1] at hfirst hnot
  cases k with
  | zero => simp at hc
  | succ k =>
    rw [List.mem_range'_1] at hnot
    rw [List.range'_succ] at hfirst
    simp only [List.head?_cons, Option.mem_some_iff] at hfirst
    have := List.mem_of_getLast? hc
    rw [List.mem_range'_1] at this
    omega

/-! ### The handlers -/

/-- what the handler of EVM messages can do with an event, over all replies of the node and the queue -/
def Evm.can {V D : Type} (L : Lowering) (decodeLog : D → Option Evm.GatewayEvent)
    (deser : V → Option (Evm.PollStarted (List Evm.Message))) (H : Evm.Handler) (e : Event (Abci V)) (o : Outcome) :
    Prop := ∃ E : Evm.Env D, o = Evm.handleMessages L decodeLog deser H E e

/-- the same for Sui -/
def Sui.can {V J : Type} (L : Lowering) (P : Sui.Json J) (deser : V → Option (Sui.PollStarted (List Sui.Message)))
    (H : Sui.Handler) (e : Event (Abci V)) (o : Outcome) : Prop :=
  ∃ E : Sui.Env J, o = Sui.handleMessages L P deser H E e

/-- an EVM handler fails upon every message poll whose event it cannot decode -/
theorem Evm.poisoned {V D : Type} {W : World R (Abci V)} {L : Lowering} {decodeLog : D → Option Evm.GatewayEvent}
    {deser : V → Option (Evm.PollStarted (List Evm.Message))} {H : Evm.Handler} {b : Nat} {r : R} {a : Abci V}
    (hr : r ∈ contents (W.chain b)) (hd : W.decode r = some a)
    (hty : a.type = "wasm-messages_poll_started".toList) (hdes : deser a.attributes = none) :
    Poisoned W (Evm.can L decodeLog deser H) b := by
  refine ⟨r, a, hr, hd, ?_⟩
  rintro o ⟨E, rfl⟩ hs
  have hu : Undecodable "wasm-messages_poll_started".toList deser (.abci a) := ⟨a, rfl, hty, hdes⟩
  have hnc : ∀ p, ¬ Evm.Concerns "wasm-messages_poll_started".toList deser H E.latestBlock (.abci a) p := by
    rintro p ⟨⟨a', h1, _, h2⟩, _⟩
    simp only [Event.abci.injEq] at h1
    subst h1
    rw [hdes] at h2
    simp at h2
  exact ((Evm.C70_evm_messages_else L decodeLog deser H E (.abci a) hnc).2.mp hs) hu

theorem Sui.poisoned {V J : Type} {W : World R (Abci V)} {L : Lowering} {P : Sui.Json J}
    {deser : V → Option (Sui.PollStarted (List Sui.Message))} {H : Sui.Handler} {b : Nat} {r : R} {a : Abci V}
    (hr : r ∈ contents (W.chain b)) (hd : W.decode r = some a)
    (hty : a.type = "wasm-messages_poll_started".toList) (hdes : deser a.attributes = none) :
    Poisoned W (Sui.can L P deser H) b := by
  refine ⟨r, a, hr, hd, ?_⟩
  rintro o ⟨E, rfl⟩ hs
  have hu : Undecodable "wasm-messages_poll_started".toList deser (.abci a) := ⟨a, rfl, hty, hdes⟩
  have hnc : ∀ p, ¬ Sui.Concerns "wasm-messages_poll_started".toList deser H E.latestBlock (.abci a) p := by
    rintro p ⟨⟨a', h1, _, h2⟩, _⟩
    simp only [Event.abci.injEq] at h1
    subst h1
    rw [hdes] at h2
    simp at h2
  exact ((Sui.C70_sui_messages_else L P deser H E (.abci a) hnc).2.mp hs) hu

/-- A poll started by *any* verifier `x` about a message whose transaction id is not an EVM transaction hash -
every poll about Sui messages, for one - stops the handler for EVM messages at the block with that poll, in
every history of runs. -/
theorem C70_foreign_poll_stalls_evm {D : Type} (W : World R (Abci (Addr × VV.Event))) (L : Lowering) (Rd : Reader)
    (decodeLog : D → Option Evm.GatewayEvent) (H : Evm.Handler) (l : Label) (rs : List Run)
    (h : Sane W l [] rs)
    (hf : EachRun W (fun f r => Faithful W (Evm.can L decodeLog (Evm.readMessagesPoll L Rd) H) f r l) [] rs)
    (b : Nat) (r : R) (x : Addr) (confs : List VV.TxConfirmation) (pm : VV.PollMeta)
    (hr : r ∈ contents (W.chain b)) (hd : W.decode r = some (announced x (.messagesPollStarted confs pm)))
    (c : VV.TxConfirmation) (hc : c ∈ confs) (hno : Rd.hash c.txId = none) :
    b ∉ durableAcks W l [] rs ∧
      ∀ first ∈ (durableAcks W l [] rs).head?, first < b → ∀ n ∈ (fileAfterAll W rs).get? l, n < b := by
  refine C70_stall W _ l rs h hf b (Evm.poisoned hr hd rfl ?_)
  have : readAll (Evm.readMessage L Rd) confs = none := readAll_none hc (by unfold Evm.readMessage; rw [hno])
  simp only [announced, Evm.readMessagesPoll, Evm.readPoll, this]
  split
  · rfl
  · split <;> rfl

/-- And conversely: a poll about a message whose transaction id is not a Sui digest stops the handler for Sui. -/
theorem C70_foreign_poll_stalls_sui {J : Type} (W : World R (Abci (Addr × VV.Event))) (L : Lowering) (Rd : Reader)
    (P : Sui.Json J) (H : Sui.Handler) (l : Label) (rs : List Run)
    (h : Sane W l [] rs)
    (hf : EachRun W (fun f r => Faithful W (Sui.can L P (Sui.readMessagesPoll L Rd) H) f r l) [] rs)
    (b : Nat) (r : R) (x : Addr) (confs : List VV.TxConfirmation) (pm : VV.PollMeta)
    (hr : r ∈ contents (W.chain b)) (hd : W.decode r = some (announced x (.messagesPollStarted confs pm)))
    (c : VV.TxConfirmation) (hc : c ∈ confs) (hno : Rd.digest c.txId = none) :
    b ∉ durableAcks W l [] rs ∧
      ∀ first ∈ (durableAcks W l [] rs).head?, first < b → ∀ n ∈ (fileAfterAll W rs).get? l, n < b := by
  refine C70_stall W _ l rs h hf b (Sui.poisoned hr hd rfl ?_)
  have : readAll (Sui.readMessage L Rd) confs = none := readAll_none hc (by unfold Sui.readMessage; rw [hno])
  simp only [announced, Sui.readMessagesPoll, Sui.readPoll, this]
  split <;> rfl

/-- The same happens if the source chain of the verifier has a name that is not read back as a string (`event.rs`
reads what looks like JSON as JSON: the chain `56` becomes a number). -/
theorem C70_unreadable_chain_stalls {D : Type} (W : World R (Abci (Addr × VV.Event))) (L : Lowering) (Rd : Reader)
    (decodeLog : D → Option Evm.GatewayEvent) (H : Evm.Handler) (l : Label) (rs : List Run)
    (h : Sane W l [] rs)
    (hf : EachRun W (fun f r => Faithful W (Evm.can L decodeLog (Evm.readMessagesPoll L Rd) H) f r l) [] rs)
    (b : Nat) (r : R) (x : Addr) (confs : List VV.TxConfirmation) (pm : VV.PollMeta)
    (hr : r ∈ contents (W.chain b)) (hd : W.decode r = some (announced x (.messagesPollStarted confs pm)))
    (hno : Rd.attr pm.sourceChain = none) :
    b ∉ durableAcks W l [] rs ∧
      ∀ first ∈ (durableAcks W l [] rs).head?, first < b → ∀ n ∈ (fileAfterAll W rs).get? l, n < b := by
  refine C70_stall W _ l rs h hf b (Evm.poisoned hr hd rfl ?_)
  simp [announced, Evm.readMessagesPoll, Evm.readPoll, hno]

/-! ### A concrete case: a poll that anybody can start -/

/-- a message with an id that is not an EVM transaction -/
def suiMsg : Router.Message :=
  ⟨⟨"eth".toList, "9sB7:0".toList⟩, "0xs".toList, "avax".toList, "0xd".toList, [7]⟩

/-- the event of the poll started by account 77 -/
def suiEvent : VV.Event :=
  .messagesPollStarted [⟨"9sB7".toList, 0, "0xd".toList, "avax".toList, "0xs".toList, [7]⟩]
    ⟨1, "eth".toList, "gw".toList, 1, 110, [1, 2, 3]⟩

/-- the verifier starts the poll -/
example : (VV.history VV.exH VV.exCfg [⟨100, 77, some VV.exWorkers, .verifyMessages [suiMsg]⟩]).map
    (fun e => e.2.event) = [some suiEvent] := by decide

/-- the chain of the daemon: block 6 contains the event, the others contain something else -/
def stallWorld : World (Abci (Addr × VV.Event)) (Abci (Addr × VV.Event)) where
  chain h := { beginBlock := none
               txs := some [[announced 90 (if h = 6 then suiEvent else .voted 3 4)]]
               endBlock := none }
  decode := some

/-- hashes begin with `0x` -/
def exReader : Reader where
  attr := some
  hash s := if s.take 2 = "0x".toList then some (s.map Char.toNat) else none
  addr s := some (s.map Char.toNat)
  digest s := some (s.map Char.toNat)
  suiAddr s := some (s.map Char.toNat)

/-- the handler is stopped by the event of block 6, and again after a restart -/
def stallRuns : List Run :=
  [⟨⟨some 5, [okTick 7]⟩, [(1, served 20 (List.replicate 4 okReply ++ [⟨false, true, false⟩]))], true⟩,
   ⟨⟨none, [okTick 9]⟩, [(1, served 20 [okReply, ⟨false, true, false⟩])], true⟩]

theorem stall_sane : Sane stallWorld 1 [] stallRuns := by
  refine ⟨⟨?_, ?_, trivial⟩, ⟨?_, ?_, trivial⟩, ?_⟩ <;> decide +kernel

/-- enough for `Faithful` -/
theorem faithful_of_zip {W : World R A} {outcome : Event A → Outcome → Prop} {f : StateFile} {r : Run} {l : Label}
    (g : Event A → Outcome) (hg : ∀ e, outcome e (g e))
    (h : ∀ h ∈ r.handlers, h.1 = l → ∀ p ∈ (handlerOut W f r l).1.zip h.2.replies,
      p.2.handled = true → (g p.1).result = .ok ()) : Faithful W outcome f r l := by
  intro hd hmem hl i e rep h1 h2
  refine ⟨g e, hg e, fun hh => h hd hmem hl (e, rep) ?_ hh⟩
  rw [List.mem_iff_getElem?]
  exact ⟨i, by rw [List.getElem?_zip_eq_some]; exact ⟨h1, h2⟩⟩

example : EachRun stallWorld (fun f r => Faithful stallWorld (Evm.can Router.asciiLower
    (some : Evm.GatewayEvent → Option Evm.GatewayEvent) (Evm.readMessagesPoll Router.asciiLower exReader)
    Evm.exHandler) f r 1) [] stallRuns := by
  refine ⟨faithful_of_zip (fun e => Evm.handleMessages Router.asciiLower some
      (Evm.readMessagesPoll Router.asciiLower exReader) Evm.exHandler Evm.exEnv e) (fun e => ⟨Evm.exEnv, rfl⟩) ?_,
    faithful_of_zip (fun e => Evm.handleMessages Router.asciiLower some
      (Evm.readMessagesPoll Router.asciiLower exReader) Evm.exHandler Evm.exEnv e) (fun e => ⟨Evm.exEnv, rfl⟩) ?_,
    trivial⟩
  · decide +kernel
  · decide +kernel

example : durableAcks stallWorld 1 [] stallRuns = [5] ∧ (fileAfterAll stallWorld stallRuns).get? 1 = some 5 ∧
    exReader.hash "9sB7".toList = none := by decide +kernel

end Amp.Ampd
