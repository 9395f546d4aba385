import Verif.Gateway.Spec
import Mathlib.Data.List.Induction

/-!
# C25 - C28: the gateway

For every configuration, every list of calls with arbitrary senders and every behaviour of the verifier.
-/

namespace Amp.Gateway

open Amp.Router

/-! ### helper lemmas -/

theorem hasDuplicates_iff (l : List CCId) : hasDuplicates l = true ↔ ¬ l.Nodup := by
  induction l with
  | nil => simp [hasDuplicates]
  | cons a t ih =>
    simp only [hasDuplicates, Bool.or_eq_true, decide_eq_true_eq, ih, List.nodup_cons]
    by_cases h : a ∈ t <;> simp [h]

theorem collectMap_eq (ans : List (CCId × Bool)) (id : CCId) :
    collectMap ans id = ((ans.filter (fun e => e.1 = id)).getLast?).map Prod.snd := by
  unfold collectMap
  have : ∀ (l : List (CCId × Bool)) (kv : KV CCId Bool),
      l.foldl (fun kv e => kv.set e.1 e.2) kv id =
        match (l.filter (fun e => e.1 = id)).getLast? with
        | some e => some e.2
        | none => kv id := by
    intro l
    induction l using List.reverseRecOn with
    | nil => intro kv; rfl
    | append_singleton l e ih =>
      intro kv
      rw [List.foldl_append]
      simp only [List.foldl_cons, List.foldl_nil, List.filter_append, List.filter_cons,
        List.filter_nil]
      by_cases h : e.1 = id
      · simp [h]
      · simp only [h, decide_false, Bool.false_eq_true, if_false, List.append_nil]
        rw [KV.set_ne _ _ (Ne.symm h)]
        exact ih kv
  rw [this]
  cases (ans.filter (fun e => e.1 = id)).getLast? <;> simp

theorem isVerifiedIn_eq (ans : List (CCId × Bool)) (m : Message) :
    isVerifiedIn (collectMap ans) m = ReportedVerified ans m.ccId := by
  unfold isVerifiedIn ReportedVerified
  rw [collectMap_eq]
  cases h : (ans.filter (fun e => e.1 = m.ccId)).getLast? with
  | none => simp
  | some e =>
    have hm := List.mem_of_getLast? h
    have he : e.1 = m.ccId := by simpa using (List.mem_filter.mp hm).2
    obtain ⟨k, b⟩ := e
    simp only at he
    subst he
    cases b <;> simp

theorem saveAll_eq (ms : List Message) (kv : KV CCId Message) (id : CCId) :
    saveAll kv ms id = match (ms.filter (fun m => m.ccId = id)).getLast? with
      | some m => some m
      | none => kv id := by
  unfold saveAll
  induction ms using List.reverseRecOn generalizing kv with
  | nil => rfl
  | append_singleton l m ih =>
    rw [List.foldl_append]
    simp only [List.foldl_cons, List.foldl_nil, List.filter_append, List.filter_cons, List.filter_nil]
    by_cases h : m.ccId = id
    · simp [h]
    · simp only [h, decide_false, Bool.false_eq_true, if_false, List.append_nil]
      rw [KV.set_ne _ _ (Ne.symm h)]
      exact ih kv

theorem exec_config {s s' : State} {c : Call} {r : Resp} (h : exec s c = .ok (s', r)) :
    s'.config = s.config := by
  unfold exec verifyMessages routeOutgoing routeIncoming at h
  split at h
  · split at h
    · simp only [Except.ok.injEq, Prod.mk.injEq] at h; rw [← h.1]
    · split at h
      · simp at h
      · split at h
        · simp at h
        · split at h <;> (simp only [Except.ok.injEq, Prod.mk.injEq] at h; rw [← h.1])
  · split at h
    · split at h
      · simp at h
      · simp only [Except.ok.injEq, Prod.mk.injEq] at h; rw [← h.1]
    · split at h
      · simp at h
      · split at h
        · simp at h
        · simp only [Except.ok.injEq, Prod.mk.injEq] at h; rw [← h.1]

theorem config_reachable (cfg : Config) (cs : List Call) : (stateAfter cfg cs).config = cfg :=
  runCalls_inv exec (P := fun s => s.config = cfg)
    (fun _ _ _ _ hi hx => by rw [exec_config hx, hi]) _ rfl cs

/-! ### concrete data for the non-vacuity checks -/

/-- verifier 8, router 9 -/
def exCfg : Config := ⟨8, 9⟩

/-- a message -/
def exM (id : String) : Message :=
  ⟨⟨"eth".toList, id.toList⟩, "0xa".toList, "avax".toList, "0xb".toList, [1]⟩

/-- a verifier that has verified ids "1" and "3" -/
def exVerifier : List Message → Option (List (CCId × Bool)) := fun ms =>
  some (ms.map (fun m => (m.ccId, m.ccId.id = "1".toList || m.ccId.id = "3".toList)))

/-! ### C25 -/

/-- C25: when anyone but the router calls `RouteMessages`, the verified messages of the batch, and no
others, are sent to the router, in order and in one message; nothing is sent if none is verified; the
store does not change. -/
theorem C25_only_verified (cfg : Config) (cs : List Call) (c : Call) (ms : List Message)
    (hm : c.msg = .routeMessages ms) (hs : c.sender ≠ cfg.router) {s' : State} {r : Resp}
    (hx : exec (stateAfter cfg cs) c = .ok (s', r)) :
    s' = stateAfter cfg cs ∧ ∃ ans, c.verifier ms = some ans ∧
      r.out = (if ms.filter (fun m => ReportedVerified ans m.ccId) = [] then []
        else [.route cfg.router (ms.filter (fun m => ReportedVerified ans m.ccId))]) ∧
      r.events = (ms.filter (fun m => ReportedVerified ans m.ccId)).map .messageRouted ++
        (ms.filter (fun m => ! ReportedVerified ans m.ccId)).map .messageRoutingFailed := by
  have hc := config_reachable cfg cs
  revert hc hx
  generalize stateAfter cfg cs = s
  intro hx hc
  simp only [exec, hm, hc, if_neg hs, routeIncoming, partitionByVerified] at hx
  split at hx
  · simp at hx
  split at hx
  · simp at hx
  rename_i v u hp
  split at hp
  · simp at hp
  rename_i ans ha
  simp only [Except.ok.injEq, List.partition_eq_filter_filter, Prod.mk.injEq] at hp
  have hf : isVerifiedIn (collectMap ans) = fun m => ReportedVerified ans m.ccId :=
    funext (isVerifiedIn_eq ans)
  rw [hf] at hp
  obtain ⟨rfl, rfl⟩ := hp
  simp only [Except.ok.injEq, Prod.mk.injEq] at hx
  obtain ⟨rfl, rfl⟩ := hx
  refine ⟨rfl, ans, ha, ?_, ?_⟩
  · rfl
  · simp only [Function.comp_def]

/-- C25: hence every message the gateway ever sends to the router, in any history, was reported
verified by the verifier at that moment. -/
theorem C25_history (cfg : Config) (cs : List Call) {c : Call} {r : Resp}
    (h : (c, r) ∈ history cfg cs) {dst : Addr} {out : List Message} (ho : .route dst out ∈ r.out) :
    dst = cfg.router ∧ c.sender ≠ cfg.router ∧ ∃ ms ans, c.msg = .routeMessages ms ∧
      c.verifier ms = some ans ∧ ∀ m ∈ out, m ∈ ms ∧ ReportedVerified ans m.ccId = true := by
  have key : ∀ e ∈ history cfg cs, ∀ dst out, Out.route dst out ∈ e.2.out →
      dst = cfg.router ∧ e.1.sender ≠ cfg.router ∧ ∃ ms ans, e.1.msg = .routeMessages ms ∧
      e.1.verifier ms = some ans ∧ ∀ m ∈ out, m ∈ ms ∧ ReportedVerified ans m.ccId = true := by
    have := outs_inv exec (P := fun log s => s.config = cfg ∧
      ∀ e ∈ log, ∀ dst out, Out.route dst out ∈ e.2.out →
      dst = cfg.router ∧ e.1.sender ≠ cfg.router ∧ ∃ ms ans, e.1.msg = .routeMessages ms ∧
      e.1.verifier ms = some ans ∧ ∀ m ∈ out, m ∈ ms ∧ ReportedVerified ans m.ccId = true)
      (init cfg) ⟨rfl, by simp⟩ ?_ cs
    · exact this.2
    rintro log s c s' r ⟨hc, hp⟩ hx
    refine ⟨by rw [exec_config hx, hc], ?_⟩
    intro e he dst out ho
    rcases List.mem_append.mp he with he | he
    · exact hp e he dst out ho
    simp only [List.mem_singleton] at he
    subst he
    simp only at ho ⊢
    cases hmsg : c.msg with
    | verifyMessages ms =>
      simp only [exec, hmsg, verifyMessages] at hx
      split at hx
      · simp only [Except.ok.injEq, Prod.mk.injEq] at hx; rw [← hx.2] at ho; simp at ho
      · split at hx
        · simp at hx
        · split at hx
          · simp at hx
          · split at hx <;>
              (simp only [Except.ok.injEq, Prod.mk.injEq] at hx; rw [← hx.2] at ho; simp at ho)
    | routeMessages ms =>
      by_cases hs : c.sender = cfg.router
      · simp only [exec, hmsg, hc, if_pos hs, routeOutgoing] at hx
        split at hx
        · simp at hx
        · simp only [Except.ok.injEq, Prod.mk.injEq] at hx; rw [← hx.2] at ho; simp at ho
      · simp only [exec, hmsg, hc, if_neg hs, routeIncoming, partitionByVerified] at hx
        split at hx
        · simp at hx
        split at hx
        · simp at hx
        rename_i v u hpv
        split at hpv
        · simp at hpv
        rename_i ans ha
        simp only [Except.ok.injEq, List.partition_eq_filter_filter, Prod.mk.injEq] at hpv
        simp only [Except.ok.injEq, Prod.mk.injEq] at hx
        rw [← hx.2] at ho
        simp only at ho
        split at ho
        · simp at ho
        simp only [List.mem_singleton, Out.route.injEq] at ho
        obtain ⟨rfl, rfl⟩ := ho
        refine ⟨rfl, hs, ms, ans, rfl, ha, ?_⟩
        intro m hmem
        rw [← hpv.1] at hmem
        obtain ⟨h1, h2⟩ := List.mem_filter.mp hmem
        exact ⟨h1, by rw [← isVerifiedIn_eq]; exact h2⟩
  exact key _ h dst out ho

example : exec (init exCfg) ⟨5, exVerifier, .routeMessages [exM "1", exM "2", exM "3"]⟩ =
    .ok (init exCfg, ⟨[.route 9 [exM "1", exM "3"]],
      [.messageRouted (exM "1"), .messageRouted (exM "3"),
        .messageRoutingFailed (exM "2")]⟩) := rfl

/-! ### C26 -/

/-- C26: `VerifyMessages` forwards to the verifier exactly the messages not reported verified, in order,
and sends nothing if there are none; the store does not change. -/
theorem C26_only_unverified (cfg : Config) (cs : List Call) (c : Call) (ms : List Message)
    (hm : c.msg = .verifyMessages ms) {s' : State} {r : Resp}
    (hx : exec (stateAfter cfg cs) c = .ok (s', r)) :
    s' = stateAfter cfg cs ∧
    (ms = [] ∧ r.out = [] ∨ ∃ ans, c.verifier ms = some ans ∧
      r.out = (if ms.filter (fun m => ! ReportedVerified ans m.ccId) = [] then []
        else [.verify cfg.verifier (ms.filter (fun m => ! ReportedVerified ans m.ccId))])) := by
  have hc := config_reachable cfg cs
  revert hc hx
  generalize stateAfter cfg cs = s
  intro hx hc
  simp only [exec, hm, hc, verifyMessages, partitionByVerified] at hx
  split at hx
  · rename_i he
    simp only [Except.ok.injEq, Prod.mk.injEq] at hx
    obtain ⟨rfl, rfl⟩ := hx
    exact ⟨rfl, Or.inl ⟨he, rfl⟩⟩
  split at hx
  · simp at hx
  split at hx
  · simp at hx
  rename_i v u hp
  split at hp
  · simp at hp
  rename_i ans ha
  simp only [Except.ok.injEq, List.partition_eq_filter_filter, Prod.mk.injEq] at hp
  have hf : isVerifiedIn (collectMap ans) = fun m => ReportedVerified ans m.ccId :=
    funext (isVerifiedIn_eq ans)
  rw [hf] at hp
  obtain ⟨rfl, rfl⟩ := hp
  split at hx
  · rename_i he
    simp only [Except.ok.injEq, Prod.mk.injEq] at hx
    obtain ⟨rfl, rfl⟩ := hx
    refine ⟨rfl, Or.inr ⟨ans, ha, ?_⟩⟩
    simp only [Function.comp_def] at he
    rw [if_pos he]
  · rename_i he
    simp only [Except.ok.injEq, Prod.mk.injEq] at hx
    obtain ⟨rfl, rfl⟩ := hx
    refine ⟨rfl, Or.inr ⟨ans, ha, ?_⟩⟩
    simp only [Function.comp_def] at he ⊢
    rw [if_neg he]

example : exec (init exCfg) ⟨5, exVerifier, .verifyMessages [exM "1", exM "2", exM "4"]⟩ =
    .ok (init exCfg, { out := [.verify 8 [exM "2", exM "4"]] }) := rfl

/-! ### C27 -/

/-- C27: the message stored for delivery under an id is the last one with that id delivered by the
router; nobody else influences the store. -/
theorem C27_outgoing_from_router (cfg : Config) (cs : List Call) (id : CCId) :
    (stateAfter cfg cs).outgoing id = lastDelivered cfg (history cfg cs) id := by
  have := outs_inv exec (P := fun log s => s.config = cfg ∧
    s.outgoing id = lastDelivered cfg log id) (init cfg) ⟨rfl, rfl⟩ ?_ cs
  · exact this.2
  rintro log s c s' r ⟨hc, hp⟩ hx
  refine ⟨by rw [exec_config hx, hc], ?_⟩
  unfold lastDelivered deliveredByRouter at *
  rw [List.flatMap_append, List.filter_append]
  simp only [List.flatMap_cons, List.flatMap_nil, List.append_nil]
  cases hmsg : c.msg with
  | verifyMessages ms =>
    have hs' : s' = s := by
      simp only [exec, hmsg, verifyMessages] at hx
      split at hx
      · simp only [Except.ok.injEq, Prod.mk.injEq] at hx; exact hx.1.symm
      · split at hx
        · simp at hx
        · split at hx
          · simp at hx
          · split at hx <;> (simp only [Except.ok.injEq, Prod.mk.injEq] at hx; exact hx.1.symm)
    rw [hs']
    simpa using hp
  | routeMessages ms =>
    by_cases hs : c.sender = cfg.router
    · simp only [exec, hmsg, hc, if_pos hs, routeOutgoing] at hx
      split at hx
      · simp at hx
      simp only [Except.ok.injEq, Prod.mk.injEq] at hx
      rw [← hx.1]
      simp only [if_pos hs, saveAll_eq]
      cases h : (ms.filter (fun m => decide (m.ccId = id))).getLast? with
      | none =>
        rw [List.getLast?_eq_none_iff] at h
        simp only [h, List.append_nil]
        exact hp
      | some m => simp only [List.getLast?_append, h, Option.some_or]
    · have hs' : s' = s := by
        simp only [exec, hmsg, hc, if_neg hs, routeIncoming] at hx
        split at hx
        · simp at hx
        split at hx
        · simp at hx
        simp only [Except.ok.injEq, Prod.mk.injEq] at hx
        exact hx.1.symm
      rw [hs']
      simp only [if_neg hs]
      simpa using hp

/-- C27: a query for ids returns the stored messages in the order asked for, or fails if one of them
was never delivered. -/
theorem C27_query_exact (cfg : Config) (cs : List Call) (ids : List CCId) (ms : List Message) :
    getMessages (stateAfter cfg cs) ids = .ok ms ↔
      ids.map (lastDelivered cfg (history cfg cs)) = ms.map some := by
  have hfun : lastDelivered cfg (history cfg cs) = (stateAfter cfg cs).outgoing :=
    funext (fun id => (C27_outgoing_from_router cfg cs id).symm)
  rw [hfun]
  unfold getMessages
  generalize stateAfter cfg cs = s
  induction ids generalizing ms with
  | nil =>
    simp only [mapE, Except.ok.injEq, List.map_nil]
    exact ⟨fun h => by rw [← h]; rfl, fun h => (List.map_eq_nil_iff.mp h.symm).symm⟩
  | cons id t ih =>
    rw [mapE_cons_ok]
    constructor
    · rintro ⟨b, bs, h1, h2, rfl⟩
      unfold loadOutgoing at h1
      split at h1
      · simp at h1
      rename_i m hm
      simp only [Except.ok.injEq] at h1
      subst h1
      simp only [List.map_cons, hm, (ih bs).mp h2]
    · intro h
      cases ms with
      | nil => simp at h
      | cons m ms =>
        simp only [List.map_cons, List.cons.injEq] at h
        exact ⟨m, ms, by simp [loadOutgoing, h.1], (ih ms).mpr h.2, rfl⟩

/-- C27: the stored message carries the id it is stored under. -/
theorem C27_stored_under_own_id (cfg : Config) (cs : List Call) (id : CCId) (m : Message)
    (h : (stateAfter cfg cs).outgoing id = some m) :
    m.ccId = id ∧ m ∈ deliveredByRouter cfg (history cfg cs) := by
  rw [C27_outgoing_from_router] at h
  have := List.mem_filter.mp (List.mem_of_getLast? h)
  exact ⟨by simpa using this.2, this.1⟩

/-- C27: a delivery by the router that repeats no id is accepted, stores every message of the batch and
announces each of them as routed, in order; nothing is sent anywhere. -/
theorem C27_delivery (cfg : Config) (cs : List Call) (c : Call) (ms : List Message)
    (hm : c.msg = .routeMessages ms) (hr : c.sender = cfg.router) (hnd : (ms.map (·.ccId)).Nodup) :
    ∃ s', exec (stateAfter cfg cs) c = .ok (s', { out := [], events := ms.map .messageRouted }) ∧
      ∀ m ∈ ms, s'.outgoing m.ccId = some m := by
  have hc : (stateAfter cfg cs).config = cfg :=
    runCalls_inv exec (P := fun s => s.config = cfg)
      (fun _ _ _ _ hi hx => by rw [exec_config hx, hi]) _ rfl cs
  have hdup : hasDuplicates (ms.map (·.ccId)) = false := by
    cases h : hasDuplicates (ms.map (·.ccId)) with
    | false => rfl
    | true => exact absurd hnd ((hasDuplicates_iff _).mp h)
  have hx : exec (stateAfter cfg cs) c = .ok ({ stateAfter cfg cs with
      outgoing := saveAll (stateAfter cfg cs).outgoing ms }, { events := ms.map .messageRouted }) := by
    simp only [exec, hm, hc, hr, if_true, routeOutgoing, hdup, Bool.false_eq_true, if_false]
  refine ⟨_, hx, ?_⟩
  intro m hmem
  have hgen : ∀ (ms : List Message) (kv : KV CCId Message), (ms.map (·.ccId)).Nodup → ∀ m ∈ ms,
      saveAll kv ms m.ccId = some m := by
    intro ms
    induction ms with
    | nil => intro kv _ m h; simp at h
    | cons a t ih =>
      intro kv hnd m h
      simp only [List.map_cons, List.nodup_cons] at hnd
      change saveAll (kv.set a.ccId a) t m.ccId = some m
      rcases List.mem_cons.mp h with rfl | h
      · have : ∀ (t : List Message) (kv : KV CCId Message), m.ccId ∉ t.map (·.ccId) →
            saveAll kv t m.ccId = kv m.ccId := by
          intro t
          induction t with
          | nil => intro kv _; rfl
          | cons b t ih =>
            intro kv hb
            simp only [List.map_cons, List.mem_cons, not_or] at hb
            change saveAll (kv.set b.ccId b) t m.ccId = kv m.ccId
            rw [ih _ hb.2, KV.set_apply, if_neg hb.1]
        rw [this t _ hnd.1, KV.set_apply, if_pos rfl]
      · exact ih _ hnd.2 m h
  exact hgen ms _ hnd m hmem

example : getMessages (stateAfter exCfg [⟨9, exVerifier, .routeMessages [exM "7", exM "8"]⟩,
      ⟨4, exVerifier, .routeMessages [exM "1"]⟩]) [(exM "8").ccId, (exM "7").ccId] =
      .ok [exM "8", exM "7"] ∧
    getMessages (stateAfter exCfg [⟨4, exVerifier, .routeMessages [exM "1"]⟩]) [(exM "1").ccId] =
      .error .loadOutgoingMessage := ⟨rfl, rfl⟩

/-! ### C28 -/

/-- C28: a batch is rejected for duplicate ids exactly if two of its messages share an id, whoever
sends it and whether it is to be verified or routed. -/
theorem C28_duplicates (cfg : Config) (cs : List Call) (c : Call) (ms : List Message)
    (hm : c.msg = .verifyMessages ms ∨ c.msg = .routeMessages ms) :
    exec (stateAfter cfg cs) c = .error .duplicateMessageIds ↔ ¬ (ms.map (·.ccId)).Nodup := by
  rw [← hasDuplicates_iff]
  generalize stateAfter cfg cs = s
  have hp : ∀ (v : List Message → Option (List (CCId × Bool))),
      partitionByVerified v ms ≠ .error .duplicateMessageIds := by
    intro v h
    unfold partitionByVerified at h
    split at h <;> simp at h
  rcases hm with hm | hm
  · simp only [exec, hm, verifyMessages]
    by_cases he : ms = []
    · simp [he, hasDuplicates]
    rw [if_neg he]
    by_cases hd : hasDuplicates (ms.map (·.ccId)) = true
    · simp [hd]
    · rw [if_neg hd]
      simp only [hd, Bool.false_eq_true, iff_false]
      split
      · rename_i e hpe
        intro h
        simp only [Except.error.injEq] at h
        subst h
        exact hp _ hpe
      · split <;> simp
  · simp only [exec, hm]
    split
    · unfold routeOutgoing
      by_cases hd : hasDuplicates (ms.map (·.ccId)) = true
      · simp [hd]
      · rw [if_neg hd]; simp [hd]
    · unfold routeIncoming
      by_cases hd : hasDuplicates (ms.map (·.ccId)) = true
      · simp [hd]
      · rw [if_neg hd]
        simp only [hd, Bool.false_eq_true, iff_false]
        split
        · rename_i e hpe
          intro h
          simp only [Except.error.injEq] at h
          subst h
          exact hp _ hpe
        · simp

/-- C28: hence every batch the gateway sends to the router or the verifier has pairwise distinct ids. -/
theorem C28_forwarded_distinct (cfg : Config) (cs : List Call) (c : Call) {s' : State} {r : Resp}
    (hx : exec (stateAfter cfg cs) c = .ok (s', r)) {dst : Addr} {ms : List Message}
    (ho : .route dst ms ∈ r.out ∨ .verify dst ms ∈ r.out) : (ms.map (·.ccId)).Nodup := by
  have hsub : ∀ (ms out : List Message), (ms.map (·.ccId)).Nodup → out.Sublist ms →
      (out.map (·.ccId)).Nodup := fun ms out h hs => List.Nodup.sublist (List.Sublist.map _ hs) h
  cases hmsg : c.msg with
  | verifyMessages l =>
    have hnd : (l.map (·.ccId)).Nodup := by
      by_contra hnd
      rw [(C28_duplicates cfg cs c l (Or.inl hmsg)).mpr hnd] at hx
      simp at hx
    obtain ⟨_, ⟨_, h⟩ | ⟨ans, _, h⟩⟩ := C26_only_unverified cfg cs c l hmsg hx
    · rw [h] at ho; simp at ho
    · rw [h] at ho
      split at ho
      · simp at ho
      · simp only [List.mem_singleton, reduceCtorEq, Out.verify.injEq, false_or] at ho
        rw [ho.2]
        exact hsub _ _ hnd List.filter_sublist
  | routeMessages l =>
    have hnd : (l.map (·.ccId)).Nodup := by
      by_contra hnd
      rw [(C28_duplicates cfg cs c l (Or.inr hmsg)).mpr hnd] at hx
      simp at hx
    by_cases hs : c.sender = cfg.router
    · simp only [exec, hmsg, config_reachable, if_pos hs, routeOutgoing] at hx
      split at hx
      · simp at hx
      · simp only [Except.ok.injEq, Prod.mk.injEq] at hx; rw [← hx.2] at ho; simp at ho
    · obtain ⟨_, ans, _, h, _⟩ := C25_only_verified cfg cs c l hmsg hs hx
      rw [h] at ho
      split at ho
      · simp at ho
      · simp only [List.mem_singleton, reduceCtorEq, Out.route.injEq, or_false] at ho
        rw [ho.2]
        exact hsub _ _ hnd List.filter_sublist

example : exec (init exCfg) ⟨9, exVerifier, .routeMessages [exM "1", exM "2", exM "1"]⟩ =
    .error .duplicateMessageIds ∧
    ¬ ([exM "1", exM "2", exM "1"].map (·.ccId)).Nodup := ⟨rfl, by decide⟩

end Amp.Gateway
