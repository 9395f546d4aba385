import Verif.Nexus.Spec
import Mathlib.Data.List.Nodup
import Mathlib.Data.List.Induction

/-!
# C29 - C31: the nexus gateway

For every configuration and every list of calls with arbitrary senders and batches.
-/

namespace Amp.Nexus

open Amp.Router

/-! ### helper lemmas -/

theorem markAll_eq (ms : List Message) (kv : KV CCId Unit) (id : CCId) :
    (markAll kv ms id).isSome = true ↔ (kv id).isSome = true ∨ id ∈ ms.map (·.ccId) := by
  unfold markAll
  induction ms using List.reverseRecOn with
  | nil => simp
  | append_singleton l m ih =>
    rw [List.foldl_append]
    simp only [List.foldl_cons, List.foldl_nil, KV.set_apply, List.map_append, List.map_cons,
      List.map_nil, List.mem_append, List.mem_singleton]
    by_cases h : id = m.ccId
    · simp [h]
    · rw [if_neg h, ih]; simp [h]

theorem exec_cases {s s' : State} {c : Call} {r : Resp} (h : exec s c = .ok (s', r)) :
    (∃ ms, c.msg = .routeMessages ms ∧ c.sender = s.config.router ∧
      r = { toModule := (ms.filter (fun m => (s.routed m.ccId).isNone)).map toNexus,
            forwarded := ms.filter (fun m => (s.routed m.ccId).isNone) } ∧
      s' = { s with routed := markAll s.routed (ms.filter (fun m => (s.routed m.ccId).isNone)) }) ∨
    (∃ ns, c.msg = .routeMessagesFromNexus ns ∧ c.sender = s.config.nexus ∧ s' = s ∧
      r = { toRouter := if ns = [] then [] else [(s.config.router, ns.map toRouter)] }) := by
  unfold exec at h
  split at h
  · rename_i ms hm
    unfold routeToNexus at h
    split at h
    · simp at h
    rename_i hs
    simp only [Except.ok.injEq, Prod.mk.injEq] at h
    exact Or.inl ⟨ms, hm, not_not.mp hs, h.2.symm, h.1.symm⟩
  · rename_i ns hm
    unfold routeToRouter at h
    split at h
    · simp at h
    rename_i hs
    refine Or.inr ⟨ns, hm, not_not.mp hs, ?_⟩
    cases ns with
    | nil =>
      simp only [List.map_nil, if_true, Except.ok.injEq, Prod.mk.injEq] at h
      exact ⟨h.1.symm, by rw [← h.2]; rfl⟩
    | cons a t =>
      simp only [List.map_cons, reduceCtorEq, if_false, Except.ok.injEq, Prod.mk.injEq] at h
      exact ⟨h.1.symm, by rw [← h.2]; rfl⟩

theorem exec_config {s s' : State} {c : Call} {r : Resp} (h : exec s c = .ok (s', r)) :
    s'.config = s.config := by
  rcases exec_cases h with ⟨_, _, _, _, rfl⟩ | ⟨_, _, _, rfl, _⟩ <;> rfl

theorem routed_iff (cfg : Config) (cs : List Call) (id : CCId) :
    (stateAfter cfg cs).config = cfg ∧
    (((stateAfter cfg cs).routed id).isSome = true ↔ id ∈ forwardedIds (history cfg cs)) := by
  refine outs_inv exec (P := fun log s => s.config = cfg ∧
    ((s.routed id).isSome = true ↔ id ∈ forwardedIds log)) (init cfg)
    ⟨rfl, by simp [init, forwardedIds, forwardedIn]⟩ ?_ cs
  rintro log s c s' r ⟨hc, hp⟩ hx
  refine ⟨by rw [exec_config hx, hc], ?_⟩
  simp only [forwardedIds, forwardedIn, List.flatMap_append, List.flatMap_cons, List.flatMap_nil,
    List.append_nil, List.map_append, List.mem_append] at hp ⊢
  rw [← hp]
  rcases exec_cases hx with ⟨ms, _, _, rfl, rfl⟩ | ⟨ns, _, _, rfl, rfl⟩
  · simp only [markAll_eq]
  · simp

/-! ### concrete data for the non-vacuity checks -/

/-- nexus module account 1, router 2 -/
def exCfg : Config := ⟨1, 2⟩

/-- a router message with a well formed id -/
def exM (id : String) : Message :=
  ⟨⟨"eth".toList, id.toList⟩, "0xa".toList, "avax".toList, "0xb".toList, [1]⟩

/-! ### C29 -/

/-- C29: a call forwards exactly the messages of the batch whose ids were never forwarded by an earlier
call, in order, and converts each of them. -/
theorem C29_exact (cfg : Config) (cs : List Call) (ms : List Message) {s' : State} {r : Resp}
    (hx : exec (stateAfter cfg cs) ⟨cfg.router, .routeMessages ms⟩ = .ok (s', r)) :
    r.forwarded = ms.filter (fun m => m.ccId ∉ forwardedIds (history cfg cs)) ∧
    r.toModule = r.forwarded.map toNexus ∧ r.toRouter = [] := by
  have hr := fun id => (routed_iff cfg cs id).2
  rcases exec_cases hx with ⟨ms', hm, _, rfl, rfl⟩ | ⟨ns, hm, _⟩
  · simp only [Msg.routeMessages.injEq] at hm
    subst hm
    refine ⟨?_, rfl, rfl⟩
    simp only
    refine List.filter_congr (fun m _ => ?_)
    have := hr m.ccId
    by_cases h : m.ccId ∈ forwardedIds (history cfg cs)
    · have h2 := this.mpr h
      simp only [h, not_true_eq_false, decide_false]
      cases h3 : (stateAfter cfg cs).routed m.ccId <;> simp_all
    · have h2 : ¬ ((stateAfter cfg cs).routed m.ccId).isSome = true := fun hh => h (this.mp hh)
      simp only [h, not_false_eq_true, decide_true]
      cases h3 : (stateAfter cfg cs).routed m.ccId <;> simp_all
  · simp at hm

/-- C29 across calls: no call ever forwards an id that an earlier call of the history forwarded. -/
theorem C29_across_calls (cfg : Config) (cs : List Call) {l₁ l₂ : List (Call × Resp)}
    {e : Call × Resp} (h : history cfg cs = l₁ ++ e :: l₂) :
    ∀ m ∈ e.2.forwarded, m.ccId ∉ forwardedIds l₁ := by
  have key := outs_inv exec (P := fun log s =>
    (∀ id, (s.routed id).isSome = true ↔ id ∈ forwardedIds log) ∧
    ∀ l₁ e l₂, log = l₁ ++ e :: l₂ → ∀ m ∈ e.2.forwarded, m.ccId ∉ forwardedIds l₁)
    (init cfg) ⟨by simp [init, forwardedIds, forwardedIn], by simp⟩ ?_ cs
  · exact key.2 l₁ e l₂ h
  rintro log s c s' r ⟨hr, hp⟩ hx
  refine ⟨?_, ?_⟩
  · intro id
    simp only [forwardedIds, forwardedIn, List.flatMap_append, List.flatMap_cons, List.flatMap_nil,
      List.append_nil, List.map_append, List.mem_append] at hr ⊢
    rw [← hr]
    rcases exec_cases hx with ⟨ms, _, _, rfl, rfl⟩ | ⟨ns, _, _, rfl, rfl⟩
    · simp only [markAll_eq]
    · simp
  · intro l₁ e l₂ hl
    rcases List.eq_nil_or_concat l₂ with rfl | ⟨l₂', x, rfl⟩
    · have := List.append_inj' hl rfl
      simp only [List.cons.injEq, and_true] at this
      obtain ⟨rfl, rfl⟩ := this
      intro m hm hin
      rw [← hr] at hin
      rcases exec_cases hx with ⟨ms, _, _, rfl, rfl⟩ | ⟨ns, _, _, rfl, rfl⟩
      · simp only [List.mem_filter, Option.isNone_iff_eq_none] at hm
        simp [hm.2] at hin
      · simp at hm
    · rw [List.concat_eq_append, show l₁ ++ e :: (l₂' ++ [x]) = (l₁ ++ e :: l₂') ++ [x] by simp] at hl
      have := List.append_inj' hl rfl
      exact hp l₁ e l₂' this.1

/-- C29 is false as stated: one batch containing the same id twice is forwarded twice. -/
theorem C29_counterexample : ∃ (cfg : Config) (cs : List Call),
    ¬ (forwardedIds (history cfg cs)).Nodup :=
  ⟨exCfg, [⟨2, .routeMessages [exM "0xab:1", exM "0xab:1"]⟩], by decide⟩

/-- C29 for every history whose batches have distinct ids: each id is forwarded at most once.  Missing
for the full statement: batches repeating an id, for which it is false (`C29_counterexample`).  The
gateways never send such batches to the router (C28), but the router itself does not check. -/
theorem C29_at_most_once_partial (cfg : Config) (cs : List Call)
    (hd : ∀ c ∈ cs, ∀ ms, c.msg = .routeMessages ms → (ms.map (·.ccId)).Nodup) :
    (forwardedIds (history cfg cs)).Nodup := by
  have hmem : ∀ e ∈ history cfg cs, e.1 ∈ cs := by
    intro e he
    obtain ⟨cs₁, cs₂, _, h, _⟩ := outs_mem exec he
    rw [h]; simp
  have key := outs_inv exec (P := fun log s =>
    (∀ id, (s.routed id).isSome = true ↔ id ∈ forwardedIds log) ∧
    ((∀ e ∈ log, ∀ ms, e.1.msg = .routeMessages ms → (ms.map (·.ccId)).Nodup) →
      (forwardedIds log).Nodup))
    (init cfg) ⟨by simp [init, forwardedIds, forwardedIn], by simp [forwardedIds, forwardedIn]⟩ ?_ cs
  · exact key.2 (fun e he => hd e.1 (hmem e he))
  rintro log s c s' r ⟨hr, hp⟩ hx
  refine ⟨?_, ?_⟩
  · intro id
    simp only [forwardedIds, forwardedIn, List.flatMap_append, List.flatMap_cons, List.flatMap_nil,
      List.append_nil, List.map_append, List.mem_append] at hr ⊢
    rw [← hr]
    rcases exec_cases hx with ⟨ms, _, _, rfl, rfl⟩ | ⟨ns, _, _, rfl, rfl⟩
    · simp only [markAll_eq]
    · simp
  · intro hb
    have h1 := hp (fun e he => hb e (List.mem_append_left _ he))
    simp only [forwardedIds, forwardedIn, List.flatMap_append, List.flatMap_cons, List.flatMap_nil,
      List.append_nil, List.map_append] at h1 hr ⊢
    rcases exec_cases hx with ⟨ms, hm, _, rfl, rfl⟩ | ⟨ns, _, _, rfl, rfl⟩
    · have h2 := hb (c, _) (List.mem_append_right _ (List.mem_singleton_self _)) ms hm
      refine List.nodup_append.mpr ⟨h1, List.Nodup.sublist (List.Sublist.map _ List.filter_sublist) h2, ?_⟩
      intro a ha b hb' hab
      subst hab
      obtain ⟨m, hm1, rfl⟩ := List.mem_map.mp hb'
      simp only [List.mem_filter, Option.isNone_iff_eq_none] at hm1
      have := (hr m.ccId).mpr ha
      simp [hm1.2] at this
    · simpa using h1

/-- C29: nothing is lost either: after the router hands over a batch, every id in it has been
forwarded. -/
theorem C29_never_lost (cfg : Config) (cs : List Call) (ms : List Message) :
    ∀ m ∈ ms, m.ccId ∈ forwardedIds (history cfg (cs ++ [⟨cfg.router, .routeMessages ms⟩])) := by
  intro m hm
  rw [← (routed_iff cfg _ m.ccId).2]
  have hc := (routed_iff cfg cs m.ccId).1
  rw [stateAfter, runCalls_append]
  show ((runCalls exec (stateAfter cfg cs) _).routed _).isSome = true
  generalize stateAfter cfg cs = s at hc
  obtain ⟨r, hx⟩ : ∃ r, exec s ⟨cfg.router, .routeMessages ms⟩ =
      .ok ({ s with routed := markAll s.routed (ms.filter (fun m => (s.routed m.ccId).isNone)) }, r) := by
    simp only [exec, routeToNexus, hc, ne_eq, not_true_eq_false, if_false]
    exact ⟨_, rfl⟩
  rw [runCalls_cons, hx]
  show (markAll s.routed _ _).isSome = true
  rw [markAll_eq]
  cases h : s.routed m.ccId with
  | some u => simp
  | none =>
    right
    exact List.mem_map.mpr ⟨m, List.mem_filter.mpr ⟨hm, by simp [h]⟩, rfl⟩

example : (history exCfg [⟨2, .routeMessages [exM "0xab:1", exM "0xab:2"]⟩,
    ⟨2, .routeMessages [exM "0xab:2", exM "0xab:3"]⟩, ⟨7, .routeMessages [exM "0xab:9"]⟩]).map
      (fun e => e.2.forwarded) = [[exM "0xab:1", exM "0xab:2"], [exM "0xab:3"]] := by decide

/-! ### C30 -/

/-- C30: a call handing messages to nexus succeeds iff it comes from the router, one injecting messages
into the router iff it comes from the nexus module account; everybody else gets `Unauthorized` and
nothing changes. -/
theorem C30_access (cfg : Config) (cs : List Call) (c : Call) :
    ((∃ s' r, exec (stateAfter cfg cs) c = .ok (s', r)) ↔
      match c.msg with
      | .routeMessages _ => c.sender = cfg.router
      | .routeMessagesFromNexus _ => c.sender = cfg.nexus) ∧
    (∀ e, exec (stateAfter cfg cs) c = .error e → e = .unauthorized) ∧
    (stateAfter cfg cs).config = cfg := by
  have hc := (routed_iff cfg cs ⟨[], []⟩).1
  revert hc
  generalize stateAfter cfg cs = s
  intro hc
  refine ⟨?_, fun e _ => by cases e; rfl, hc⟩
  obtain ⟨sender, msg⟩ := c
  cases msg with
  | routeMessages ms =>
    simp only [exec, routeToNexus, hc]
    by_cases h : sender = cfg.router <;> simp [h]
  | routeMessagesFromNexus ns =>
    simp only [exec, routeToRouter, hc]
    by_cases h : sender = cfg.nexus
    · cases ns <;> simp [h]
    · simp [h]

/-- C30: only calls from the router produce messages for the nexus module, and only calls from the nexus
module account produce messages for the router; those are the given messages, converted, in order, in a
single call to the configured router. -/
theorem C30_effects (cfg : Config) (cs : List Call) (c : Call) {s' : State} {r : Resp}
    (hx : exec (stateAfter cfg cs) c = .ok (s', r)) :
    (r.toModule ≠ [] → c.sender = cfg.router ∧ ∃ ms, c.msg = .routeMessages ms) ∧
    (r.toRouter ≠ [] → c.sender = cfg.nexus ∧ ∃ ns, c.msg = .routeMessagesFromNexus ns ∧ ns ≠ [] ∧
      r.toRouter = [(cfg.router, ns.map toRouter)]) ∧
    (∀ ns, c.msg = .routeMessagesFromNexus ns → ns ≠ [] →
      r.toRouter = [(cfg.router, ns.map toRouter)]) ∧
    ((∀ ms, c.msg ≠ .routeMessages ms) → s' = stateAfter cfg cs) := by
  have hc := (routed_iff cfg cs ⟨[], []⟩).1
  revert hc hx
  generalize stateAfter cfg cs = s
  intro hx hc
  rcases exec_cases hx with ⟨ms, hm, hs, rfl, rfl⟩ | ⟨ns, hm, hs, rfl, rfl⟩
  · rw [hc] at hs
    refine ⟨fun _ => ⟨hs, ms, hm⟩, by simp, ?_, ?_⟩
    · intro ns hn; rw [hm] at hn; simp at hn
    · intro h; exact absurd hm (h ms)
  · rw [hc] at hs ⊢
    refine ⟨by simp, ?_, ?_, fun _ => rfl⟩
    · intro h
      by_cases hn : ns = []
      · simp [hn] at h
      · exact ⟨hs, ns, hm, hn, by simp [hn]⟩
    · intro ns' hn hne
      rw [hm] at hn
      simp only [Msg.routeMessagesFromNexus.injEq] at hn
      subst hn
      simp [hne]

/-- a nexus message -/
def exN : NexusMsg := ⟨"eth".toList, "0xa".toList, "avax".toList, "0xb".toList, [1], [171, 5], 3⟩

example : exec (init exCfg) ⟨1, .routeMessagesFromNexus [exN]⟩ =
      .ok (init exCfg, { toRouter := [(2, [exM "ab05:3"])] }) ∧
    exec (init exCfg) ⟨2, .routeMessagesFromNexus [exN]⟩ = .error .unauthorized ∧
    exec (init exCfg) ⟨1, .routeMessages [exM "ab05:3"]⟩ = .error .unauthorized := ⟨rfl, rfl, rfl⟩

/-! ### C31 -/

theorem trim0x_encodeHex {b : ByteList} (h : IsBytes b) : trim0x (encodeHex b) = encodeHex b := by
  have hx := (encodeHex_notMem h).2
  generalize encodeHex b = s at hx
  unfold trim0x
  split
  · rename_i t
    exact absurd (by simp) hx
  · rfl

theorem parseMessageId_encode {b : ByteList} {n : Nat} (h0 : b ≠ []) (hb : IsBytes b)
    (hn : n ≤ u64Max) : parseMessageId (encodeHex b ++ idSep :: showNat n) = some (b, n) := by
  have h1 : idSep ∉ encodeHex b := (encodeHex_notMem hb).1
  have h2 : idSep ∉ showNat n := notMem_showNat (by decide) n
  unfold parseMessageId
  rw [splitOn_append h1, splitOn_of_notMem h2]
  cases b with
  | nil => exact absurd rfl h0
  | cons x t => simp only [trim0x_encodeHex hb, decodeHex_encodeHex hb, parseU64_showNat hn]

/-- C31: a nexus message converted to a router message and back is the same message. -/
theorem C31_roundtrip (n : NexusMsg) (h : n.WellTyped) : toNexus (toRouter n) = n := by
  obtain ⟨h0, hb, hn⟩ := h
  cases n
  simp only [toNexus, toRouter, parseMessageId_encode h0 hb hn]

/-- C31: hence different nexus messages become different router messages, and so do different
(chain, tx id, index) triples. -/
theorem C31_injective (a b : NexusMsg) (ha : a.WellTyped) (hb : b.WellTyped)
    (h : (toRouter a).ccId = (toRouter b).ccId) :
    a.sourceChain = b.sourceChain ∧ a.sourceTxId = b.sourceTxId ∧ a.sourceTxIndex = b.sourceTxIndex := by
  simp only [toRouter, CCId.mk.injEq] at h
  have h1 := parseMessageId_encode ha.1 ha.2.1 ha.2.2
  rw [h.2, parseMessageId_encode hb.1 hb.2.1 hb.2.2] at h1
  simp only [Option.some.injEq, Prod.mk.injEq] at h1
  exact ⟨h.1, h1.1.symm, h1.2.symm⟩

/-- C31, other direction: for an id of the usual form `0x<hex>:<index>` nexus gets the bytes and the
index, and all other fields are unchanged. -/
theorem C31_usual_ids (m : Message) (b : ByteList) (n : Nat) (h0 : b ≠ []) (hb : IsBytes b)
    (hn : n ≤ u64Max)
    (hid : m.ccId.id = '0' :: 'x' :: (encodeHex b ++ idSep :: showNat n)) :
    toNexus m = ⟨m.ccId.chain, m.sourceAddress, m.destinationChain, m.destinationAddress,
      m.payloadHash, b, n⟩ := by
  have h1 : idSep ∉ '0' :: 'x' :: encodeHex b := by
    have := (encodeHex_notMem hb).1
    simp only [List.mem_cons, not_or]
    exact ⟨by decide, by decide, this⟩
  have h2 : idSep ∉ showNat n := notMem_showNat (by decide) n
  have hp : parseMessageId m.ccId.id = some (b, n) := by
    rw [hid, show '0' :: 'x' :: (encodeHex b ++ idSep :: showNat n) =
      ('0' :: 'x' :: encodeHex b) ++ idSep :: showNat n by simp]
    unfold parseMessageId
    rw [splitOn_append h1, splitOn_of_notMem h2]
    cases b with
    | nil => exact absurd rfl h0
    | cons x t => simp only [trim0x, trim0x_encodeHex hb, decodeHex_encodeHex hb, parseU64_showNat hn]
  simp only [toNexus, hp]

/-- C31: every message handed to nexus is well formed: its transaction id is a non-empty byte string
and its index fits 64 bits (given that the message id is non-empty, as its type demands); and all other
fields are those of the router's message. -/
theorem C31_well_formed (m : Message) (h : m.ccId.id ≠ []) :
    (toNexus m).WellTyped ∧ (toNexus m).sourceChain = m.ccId.chain ∧
      (toNexus m).sourceAddress = m.sourceAddress ∧
      (toNexus m).destinationChain = m.destinationChain ∧
      (toNexus m).destinationAddress = m.destinationAddress ∧
      (toNexus m).payloadHash = m.payloadHash := by
  refine ⟨?_, rfl, rfl, rfl, rfl, rfl⟩
  unfold toNexus NexusMsg.WellTyped
  simp only
  cases hp : parseMessageId m.ccId.id with
  | none =>
    simp only
    refine ⟨?_, utf8Bytes_isBytes _, Nat.le_refl _⟩
    cases hid : m.ccId.id with
    | nil => exact absurd hid h
    | cons c t => exact utf8Bytes_ne_nil c t
  | some p =>
    unfold parseMessageId at hp
    split at hp
    · split at hp
      · simp at hp
      · simp at hp
      · rename_i x t hx
        split at hp
        · simp at hp
        · rename_i k hk
          simp only [Option.some.injEq] at hp
          subst hp
          exact ⟨by simp, decodeHex_isBytes hx, parseU64_le hk⟩
    · simp at hp

example : toNexus ⟨⟨"eth".toList, "0xff:3".toList⟩, [], [], [], []⟩ =
    ⟨"eth".toList, [], [], [], [], [255], 3⟩ := by decide

/-- Finding: the conversion towards nexus is not injective on ids: different router messages can arrive
at nexus as the same message, and a message id in another format may collide with the fallback. -/
theorem C31_not_injective_to_nexus :
    (∃ a b : Message, a.ccId ≠ b.ccId ∧ parseMessageId a.ccId.id ≠ none ∧ toNexus a = toNexus b) ∧
    (∃ a b : Message, a.ccId ≠ b.ccId ∧ parseMessageId a.ccId.id = none ∧ toNexus a = toNexus b) :=
  ⟨⟨exM "0xab:1", exM "AB:1", by decide⟩,
   ⟨exM "ab", exM "6162:18446744073709551615", by decide⟩⟩

example : exN.WellTyped ∧ toNexus (toRouter exN) = exN ∧ (toRouter exN).ccId.id = "ab05:3".toList :=
  ⟨⟨by decide, by unfold IsBytes; decide, by decide⟩, by decide, by decide⟩

end Amp.Nexus
