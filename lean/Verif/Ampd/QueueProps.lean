import Verif.Ampd.QueueSpec

/-! # C65: the queue of transactions, C71: sequence numbers -/

namespace Amp.Ampd

variable {M : Type}

/-! ### C71 -/

theorem confirmLoop_spec (lookups : Nat → Lookup) (n i : Nat) :
    let v := ((List.range' i n).filterMap (fun i => codeOf (lookups i))).head?
    (confirmLoop lookups n i).2 =
      (match v with
        | none => .error .txConfirmation
        | some c => if c = 0 then .ok () else .error (.execution c)) ∧
    (confirmLoop lookups n i).1 ≤ i + n := by
  induction n generalizing i with
  | zero => simp [confirmLoop]
  | succ n ih =>
    have h := ih (i + 1)
    simp only [confirmLoop, List.range'_succ, List.filterMap_cons]
    cases hl : lookups i with
    | unavailable =>
      simp only [evaluateResponse, codeOf]
      exact ⟨h.1, by have := h.2; omega⟩
    | notFound =>
      simp only [evaluateResponse, codeOf]
      exact ⟨h.1, by have := h.2; omega⟩
    | found c =>
      simp only [evaluateResponse, codeOf, List.head?_cons]
      by_cases hc : c = 0
      · simp only [hc, if_true]; exact ⟨trivial, by omega⟩
      · simp only [hc, if_false]; exact ⟨trivial, by omega⟩

theorem confirmTx_eq (cfg : BroadcastCfg) (lookups : Nat → Lookup) (h : cfg.retries < u32Max) :
    (confirmTx cfg lookups).2 = (match verdict cfg.retries lookups with
        | none => .error .txConfirmation
        | some c => if c = 0 then .ok () else .error (.execution c)) := by
  unfold confirmTx verdict
  rw [if_neg (by omega), List.range_eq_range']
  exact (confirmLoop_spec lookups (cfg.retries + 1) 0).1

/-- C71: a transaction is confirmed iff, among the first lookup and the allowed retries, the first one that
finds it reports success; a failure code is reported as such; otherwise confirmation fails.  At most
`retries + 1` lookups are made. -/
theorem C71_confirm (cfg : BroadcastCfg) (lookups : Nat → Lookup) (h : cfg.retries < u32Max) :
    ((confirmTx cfg lookups).2 = .ok () ↔ verdict cfg.retries lookups = some 0) ∧
    (∀ c, (confirmTx cfg lookups).2 = .error (.execution c) ↔
      verdict cfg.retries lookups = some c ∧ c ≠ 0) ∧
    ((confirmTx cfg lookups).2 = .error .txConfirmation ↔ verdict cfg.retries lookups = none) ∧
    (confirmTx cfg lookups).1 ≤ cfg.retries + 1 := by
  have he := confirmTx_eq cfg lookups h
  have hn : (confirmTx cfg lookups).1 ≤ cfg.retries + 1 := by
    have := (confirmLoop_spec lookups (cfg.retries + 1) 0).2
    unfold confirmTx
    rw [if_neg (by omega)]
    omega
  rw [he]
  cases verdict cfg.retries lookups with
  | none => simp [hn]
  | some c =>
    by_cases hc : c = 0
    · subst hc; simp [hn]
    · simp only [hc, if_false, hn, and_true, Option.some.injEq, reduceCtorEq, false_iff, true_and,
        Except.error.injEq, SendErr.execution.injEq, iff_self, and_true]
      intro c'
      constructor
      · rintro rfl; exact ⟨rfl, hc⟩
      · rintro ⟨rfl, _⟩; rfl

/-- one call of `broadcast` -/
theorem broadcast_spec (cfg : BroadcastCfg) (c : Client M) (msgs : List M) (r : Replies)
    (h : cfg.retries < u32Max) (hs : c.sequence < u64Max) :
    ((broadcast cfg c msgs r).2 = .ok () ↔ accepted cfg r = true) ∧
    (broadcast cfg c msgs r).1.sequence = c.sequence + (if accepted cfg r then 1 else 0) ∧
    (submits r = false → (broadcast cfg c msgs r).1.sent = c.sent) ∧
    (submits r = true → ∃ gas, r.gas = some gas ∧ (broadcast cfg c msgs r).1.sent =
      c.sent ++ [⟨msgs, cfg.adjust gas, cfg.price (cfg.adjust gas), c.sequence⟩]) := by
  unfold broadcast accepted submits
  have he := confirmTx_eq cfg r.lookups h
  cases hg : r.gas with
  | none => simp [estimateFee]
  | some g =>
    simp only [estimateFee, Option.isSome_some, Bool.true_and]
    cases hsg : r.signed with
    | false => simp
    | true =>
      simp only [Bool.not_true, Bool.false_eq_true, if_false, Bool.true_and]
      cases hsub : r.submitted with
      | false => simp
      | true =>
        simp only [Bool.not_true, Bool.false_eq_true, if_false, Bool.true_and]
        rw [he]
        cases hv : verdict cfg.retries r.lookups with
        | none => simp
        | some code =>
          by_cases hc : code = 0
          · subst hc
            simp only [if_true]
            rw [if_neg (by omega)]
            simp
          · simp [hc]

/-- C71: after any calls, the sequence number is the initial one plus the number of confirmed transactions. -/
theorem C71_sequence (cfg : BroadcastCfg) (seq : Nat) (calls : List (List M × Replies))
    (h : cfg.retries < u32Max) (hs : seq + calls.length ≤ u64Max) :
    (broadcasts cfg ⟨seq, []⟩ calls).sequence = seq + calls.countP (fun c => accepted cfg c.2) := by
  suffices H : ∀ (calls : List (List M × Replies)) (c : Client M), c.sequence + calls.length ≤ u64Max →
      (broadcasts cfg c calls).sequence = c.sequence + calls.countP (fun c => accepted cfg c.2) from
    H calls ⟨seq, []⟩ hs
  intro calls
  induction calls with
  | nil => intro c _; rfl
  | cons call calls ih =>
    intro c hc
    simp only [List.length_cons] at hc
    have hb := (broadcast_spec cfg c call.1 call.2 h (by omega)).2.1
    have hle : (broadcast cfg c call.1 call.2).1.sequence ≤ c.sequence + 1 := by
      rw [hb]; split <;> omega
    have := ih (broadcast cfg c call.1 call.2).1 (by omega)
    show (broadcasts cfg (broadcast cfg c call.1 call.2).1 calls).sequence = _
    rw [this, hb, List.countP_cons]
    omega

/-- C71: the transaction made by any call, if one is made, carries the initial sequence number plus the
number of transactions confirmed before, and the messages of the call. -/
theorem C71_used (cfg : BroadcastCfg) (seq : Nat) (before : List (List M × Replies)) (msgs : List M)
    (r : Replies) (h : cfg.retries < u32Max) (hs : seq + before.length < u64Max) :
    let c := broadcasts cfg ⟨seq, []⟩ before
    (submits r = true → ∃ gas, r.gas = some gas ∧ (broadcast cfg c msgs r).1.sent = c.sent ++
      [⟨msgs, cfg.adjust gas, cfg.price (cfg.adjust gas),
        seq + before.countP (fun c => accepted cfg c.2)⟩]) ∧
    (submits r = false → (broadcast cfg c msgs r).1.sent = c.sent) ∧
    ((broadcast cfg c msgs r).2 = .ok () ↔ accepted cfg r = true) := by
  intro c
  have hc : c.sequence = seq + before.countP (fun c => accepted cfg c.2) :=
    C71_sequence cfg seq before h (by omega)
  have hlt : c.sequence < u64Max := by
    rw [hc]
    have := List.countP_le_length (p := fun c : List M × Replies => accepted cfg c.2) (l := before)
    omega
  obtain ⟨h1, _, h3, h4⟩ := broadcast_spec cfg c msgs r h hlt
  refine ⟨?_, h3, h1⟩
  intro hsub
  obtain ⟨gas, hg, hsent⟩ := h4 hsub
  exact ⟨gas, hg, by rw [hsent, hc]⟩

/-- a transaction found on the third lookup is confirmed with two retries, not with one -/
example :
    verdict 2 (fun i => if i = 0 then .unavailable else if i = 1 then .notFound else .found 0) = some 0 ∧
    verdict 1 (fun i => if i = 0 then .unavailable else if i = 1 then .notFound else .found 0) = none ∧
    verdict 5 (fun i => if i = 0 then .found 7 else .found 0) = some 7 := by decide

/-! ### C65 -/

/-- The transactions given to the node are made of these groups of messages, with consecutive sequence
numbers. -/
structure SentAre (cfg : BroadcastCfg) (seq : Nat) (c : Client M) (groups : List (List (M × Nat))) : Prop where
  msgs : c.sent.map Tx.msgs = groups.map (List.map Prod.fst)
  seqs : c.sent.map Tx.sequence = List.range' seq c.sent.length
  nonempty : ∀ g ∈ groups, g ≠ []
  gas : ∀ g ∈ groups, 2 ≤ g.length → gasOf g < cfg.batchGasLimit

/-- while the loop runs -/
def Running (cfg : BroadcastCfg) (seq : Nat) (q : Queue M) (log : List (M × Nat)) : Prop :=
  ∃ groups pend, SentAre cfg seq q.client groups ∧ q.client.sequence = seq + q.client.sent.length ∧
    q.msgs = pend.map Prod.fst ∧ q.gas = gasOf pend ∧ (2 ≤ pend.length → gasOf pend < cfg.batchGasLimit) ∧
    groups.flatten ++ pend = log

/-- after an error -/
def Stopped (cfg : BroadcastCfg) (seq : Nat) (q : Queue M) (log : List (M × Nat)) : Prop :=
  ∃ groups, SentAre cfg seq q.client groups ∧
    (q.client.sequence = seq + q.client.sent.length ∨ q.client.sequence + 1 = seq + q.client.sent.length) ∧
    groups.flatten <+: log

theorem gasOf_append (a b : List (M × Nat)) : gasOf (a ++ b) = gasOf a + gasOf b := by
  simp [gasOf]

theorem broadcast_cases (cfg : BroadcastCfg) (c : Client M) (msgs : List M) (r : Replies) :
    ((broadcast cfg c msgs r).1 = c ∧ (broadcast cfg c msgs r).2 ≠ .ok ()) ∨
    ∃ gas fee, (broadcast cfg c msgs r).1.sent = c.sent ++ [⟨msgs, gas, fee, c.sequence⟩] ∧
      (((broadcast cfg c msgs r).2 = .ok () ∧ (broadcast cfg c msgs r).1.sequence = c.sequence + 1) ∨
       ((broadcast cfg c msgs r).2 ≠ .ok () ∧ (broadcast cfg c msgs r).1.sequence = c.sequence)) := by
  unfold broadcast
  cases hg : estimateFee cfg r.gas with
  | error e => simp
  | ok x =>
    obtain ⟨gas, fee⟩ := x
    simp only
    split
    · simp
    · right
      refine ⟨gas, fee, ?_⟩
      split
      · simp
      · cases hc : (confirmTx cfg r.lookups).2 with
        | error e => simp
        | ok u =>
          simp only
          split <;> simp

theorem broadcastAll_spec (cfg : BroadcastCfg) (seq : Nat) (q : Queue M) (r : Replies)
    (log : List (M × Nat)) (h : Running cfg seq q log) :
    ((broadcastAll cfg q r).2 = .ok () → Running cfg seq (broadcastAll cfg q r).1 log ∧
      (broadcastAll cfg q r).1.msgs = [] ∧ (broadcastAll cfg q r).1.gas = 0) ∧
    ((broadcastAll cfg q r).2 ≠ .ok () → Stopped cfg seq (broadcastAll cfg q r).1 log) := by
  obtain ⟨groups, pend, hs, hseq, hm, hg, hlim, hlog⟩ := h
  unfold broadcastAll
  cases hq : q.msgs with
  | nil =>
    rw [hq] at hm
    have hp : pend = [] := by simpa using hm.symm
    subst hp
    simp only [forall_const, and_true, ne_eq, not_true_eq_false, false_implies]
    exact ⟨groups, [], hs, hseq, rfl, rfl, by simp, hlog⟩
  | cons m t =>
    have hp : pend ≠ [] := by
      rintro rfl
      rw [hq] at hm
      simp at hm
    simp only
    rw [← hq]
    rcases broadcast_cases cfg q.client q.msgs r with ⟨hc, hne⟩ | ⟨gas, fee, hsent, hres⟩
    · refine ⟨fun h => absurd h hne, fun _ => ?_⟩
      rw [hc]
      exact ⟨groups, hs, Or.inl hseq, by rw [← hlog]; exact List.prefix_append _ _⟩
    · have hs' : SentAre cfg seq (broadcast cfg q.client q.msgs r).1 (groups ++ [pend]) := by
        refine ⟨?_, ?_, ?_, ?_⟩
        · rw [hsent]; simp [hs.msgs, hm]
        · rw [hsent]
          simp only [List.map_append, List.map_cons, List.map_nil, List.length_append, List.length_cons,
            List.length_nil, Nat.zero_add]
          rw [hs.seqs, List.range'_concat, hseq, Nat.one_mul]
        · intro g hg
          rcases List.mem_append.mp hg with hg | hg
          · exact hs.nonempty g hg
          · simp only [List.mem_singleton] at hg; subst hg; exact hp
        · intro g hg
          rcases List.mem_append.mp hg with hg | hg
          · exact hs.gas g hg
          · simp only [List.mem_singleton] at hg; subst hg; exact hlim
      have hlen : (broadcast cfg q.client q.msgs r).1.sent.length = q.client.sent.length + 1 := by
        rw [hsent]; simp
      have hfl : (groups ++ [pend]).flatten = log := by simpa using hlog
      rcases hres with ⟨hok, hsq⟩ | ⟨hne, hsq⟩
      · refine ⟨fun _ => ⟨⟨groups ++ [pend], [], hs', ?_, rfl, rfl, by simp, by simpa using hfl⟩, trivial, trivial⟩,
          fun h => absurd hok h⟩
        show (broadcast cfg q.client q.msgs r).1.sequence = seq + (broadcast cfg q.client q.msgs r).1.sent.length
        rw [hlen, hsq, hseq]; omega
      · refine ⟨fun h => absurd h hne, fun _ => ⟨groups ++ [pend], hs', Or.inr ?_, by rw [hfl]; exact List.prefix_rfl⟩⟩
        show (broadcast cfg q.client q.msgs r).1.sequence + 1 =
          seq + (broadcast cfg q.client q.msgs r).1.sent.length
        rw [hlen, hsq, hseq]; omega

theorem push_spec (cfg : BroadcastCfg) (seq : Nat) (q : Queue M) (m : M) (gas : Nat)
    (log : List (M × Nat)) (h : Running cfg seq q log)
    (hg : gas + q.gas < cfg.batchGasLimit ∨ q.msgs = []) :
    ((push q m gas).2 = .ok () → Running cfg seq (push q m gas).1 (log ++ [(m, gas)])) ∧
    ((push q m gas).2 ≠ .ok () → Stopped cfg seq (push q m gas).1 (log ++ [(m, gas)])) := by
  obtain ⟨groups, pend, hs, hseq, hm, hga, hlim, hlog⟩ := h
  unfold push
  split
  · refine ⟨fun h => by simp at h, fun _ => ⟨groups, hs, Or.inl hseq, ?_⟩⟩
    rw [← hlog, List.append_assoc]
    exact List.prefix_append _ _
  · refine ⟨fun _ => ⟨groups, pend ++ [(m, gas)], hs, hseq, by simp [hm], ?_, ?_, ?_⟩, fun h => by simp at h⟩
    · rw [gasOf_append]; simp [gasOf, hga]
    · intro hl
      rcases hg with hg | hg
      · rw [gasOf_append, ← hga]; simp only [gasOf, List.map_cons, List.map_nil, List.sum_cons,
          List.sum_nil]; omega
      · rw [hg] at hm
        have hp : pend = [] := by simpa using hm.symm
        subst hp
        simp at hl
    · rw [← hlog, List.append_assoc]

theorem Running.stopped {cfg : BroadcastCfg} {seq : Nat} {q : Queue M} {log : List (M × Nat)}
    (h : Running cfg seq q log) (log' : List (M × Nat)) : Stopped cfg seq q (log ++ log') := by
  obtain ⟨groups, pend, hs, hseq, hm, hga, hlim, hlog⟩ := h
  refine ⟨groups, hs, Or.inl hseq, ?_⟩
  rw [← hlog, List.append_assoc]
  exact List.prefix_append _ _

theorem Stopped.mono {cfg : BroadcastCfg} {seq : Nat} {q : Queue M} {log : List (M × Nat)}
    (h : Stopped cfg seq q log) (log' : List (M × Nat)) : Stopped cfg seq q (log ++ log') := by
  obtain ⟨groups, hs, hseq, hp⟩ := h
  exact ⟨groups, hs, hseq, hp.trans (List.prefix_append _ _)⟩

theorem turn_spec (cfg : BroadcastCfg) (seq : Nat) (q : Queue M) (i : Input M)
    (log : List (M × Nat)) (h : Running cfg seq q log) :
    ((turn cfg q i).2 = .ok () → Running cfg seq (turn cfg q i).1 (log ++ receivedGas cfg [i])) ∧
    ((turn cfg q i).2 ≠ .ok () → Stopped cfg seq (turn cfg q i).1 (log ++ receivedGas cfg [i])) := by
  cases i with
  | tick r =>
    have := broadcastAll_spec cfg seq q r log h
    simp only [turn, receivedGas, List.append_nil]
    exact ⟨fun h => (this.1 h).1, this.2⟩
  | force r =>
    have := broadcastAll_spec cfg seq q r log h
    simp only [turn, receivedGas, List.append_nil]
    exact ⟨fun h => (this.1 h).1, this.2⟩
  | msg m gas r =>
    cases gas with
    | none =>
      simp only [turn, receivedGas, estimateFee, List.append_nil, reduceCtorEq, ne_eq, not_false_eq_true,
        forall_const, false_implies, true_and]
      simpa using h.stopped []
    | some g =>
      simp only [turn, receivedGas, estimateFee]
      split
      · exact ⟨fun h => by simp at h, fun _ => h.stopped _⟩
      · split
        · have hb := broadcastAll_spec cfg seq q r log h
          cases hx : broadcastAll cfg q r with
          | mk q' res =>
            rw [hx] at hb
            cases res with
            | error e =>
              simp only at hb ⊢
              exact ⟨fun h => by simp at h, fun _ => (hb.2 (by simp)).mono _⟩
            | ok u =>
              simp only at hb ⊢
              obtain ⟨h1, h2, h3⟩ := hb.1 trivial
              exact push_spec cfg seq q' m (cfg.adjust g) log h1 (Or.inr h2)
        · exact push_spec cfg seq q m (cfg.adjust g) log h (Or.inl (by omega))

theorem receivedGas_cons (cfg : BroadcastCfg) (i : Input M) (is : List (Input M))
    (h : ∀ m r, i ≠ .msg m none r) :
    receivedGas cfg (i :: is) = receivedGas cfg [i] ++ receivedGas cfg is := by
  cases i with
  | msg m g r =>
    cases g with
    | none => exact absurd rfl (h m r)
    | some g => rfl
  | tick r => rfl
  | force r => rfl

theorem loop_spec (cfg : BroadcastCfg) (seq : Nat) (is : List (Input M)) (q : Queue M)
    (log : List (M × Nat)) (h : Running cfg seq q log) :
    ((loop cfg q is).2 = .ok () → Running cfg seq (loop cfg q is).1 (log ++ receivedGas cfg is)) ∧
    ((loop cfg q is).2 ≠ .ok () → Stopped cfg seq (loop cfg q is).1 (log ++ receivedGas cfg is)) := by
  induction is generalizing q log with
  | nil => simpa [loop, receivedGas] using h
  | cons i is ih =>
    have ht := turn_spec cfg seq q i log h
    by_cases hn : ∃ m r, i = .msg m none r
    · obtain ⟨m, r, rfl⟩ := hn
      simp only [loop, turn, estimateFee, receivedGas] at ht ⊢
      exact ht
    rw [receivedGas_cons cfg i is (fun m r e => hn ⟨m, r, e⟩), ← List.append_assoc]
    simp only [loop]
    cases hx : turn cfg q i with
    | mk q' res =>
      rw [hx] at ht
      cases res with
      | error e =>
        exact ⟨fun h => by simp at h, fun _ => (ht.2 (by simp)).mono _⟩
      | ok u => exact ih q' _ (ht.1 rfl)

theorem init_running (cfg : BroadcastCfg) (seq : Nat) : Running cfg seq (Queue.init (M := M) seq) [] :=
  ⟨[], [], ⟨rfl, rfl, by simp, by simp⟩, rfl, rfl, rfl, by simp, rfl⟩

theorem received_of_ok (cfg : BroadcastCfg) (is : List (Input M)) (q : Queue M)
    (h : (loop cfg q is).2 = .ok ()) : (receivedGas cfg is).map Prod.fst = received is := by
  induction is generalizing q with
  | nil => rfl
  | cons i is ih =>
    simp only [loop] at h
    cases hx : turn cfg q i with
    | mk q' res =>
      rw [hx] at h
      cases res with
      | error e => simp at h
      | ok u =>
        have := ih q' h
        cases i with
        | tick r => simpa [receivedGas, received] using this
        | force r => simpa [receivedGas, received] using this
        | msg m g r =>
          cases g with
          | none => simp [turn, estimateFee] at hx
          | some g => simp [receivedGas, received, this]

theorem receivedGas_prefix (cfg : BroadcastCfg) (is : List (Input M)) :
    (receivedGas cfg is).map Prod.fst <+: received is := by
  induction is with
  | nil => exact List.prefix_rfl
  | cons i is ih =>
    cases i with
    | tick r => exact ih
    | force r => exact ih
    | msg m g r =>
      cases g with
      | none => exact List.nil_prefix
      | some g => exact (List.prefix_cons_inj m).mpr ih

/-- C65: while the loop runs, whatever the interleaving of messages, ticks and forced broadcasts, the
messages of the transactions given to the node, in order, followed by the queue, are exactly the messages
received; and every one of these transactions was confirmed (the sequence number counts them). -/
theorem C65_order (cfg : BroadcastCfg) (seq : Nat) (is : List (Input M)) (q : Queue M)
    (h : loop cfg (Queue.init seq) is = (q, .ok ())) :
    (q.client.sent.map Tx.msgs).flatten ++ q.msgs = received is ∧
      q.client.sequence = seq + q.client.sent.length := by
  have h2 : (loop cfg (Queue.init seq) is).2 = .ok () := by rw [h]
  have hr := (loop_spec cfg seq is (Queue.init seq) [] (init_running cfg seq)).1 h2
  rw [h] at hr
  obtain ⟨groups, pend, hs, hseq, hm, _, _, hlog⟩ := hr
  refine ⟨?_, hseq⟩
  have hrec := received_of_ok cfg is (Queue.init seq) h2
  rw [← hrec, hs.msgs, hm]
  simp only [List.nil_append] at hlog
  rw [← hlog]
  simp only [List.map_append, List.map_flatten]

/-- the outcome of a run, whether it ended well or not -/
theorem runQueue_spec (cfg : BroadcastCfg) (seq : Nat) (is : List (Input M)) (final : Replies) :
    ((runQueue cfg seq is final).2 = .ok () →
      Running cfg seq (runQueue cfg seq is final).1 (receivedGas cfg is) ∧
      (runQueue cfg seq is final).1.msgs = [] ∧ (loop cfg (Queue.init seq) is).2 = .ok ()) ∧
    ((runQueue cfg seq is final).2 ≠ .ok () →
      Stopped cfg seq (runQueue cfg seq is final).1 (receivedGas cfg is)) := by
  have hl := loop_spec cfg seq is (Queue.init seq) [] (init_running cfg seq)
  simp only [List.nil_append] at hl
  unfold runQueue
  cases hx : loop cfg (Queue.init seq) is with
  | mk q res =>
    rw [hx] at hl
    cases res with
    | error e => exact ⟨fun h => by simp at h, fun _ => hl.2 (by simp)⟩
    | ok u =>
      have hb := broadcastAll_spec cfg seq q final _ (hl.1 rfl)
      exact ⟨fun h => ⟨(hb.1 h).1, (hb.1 h).2.1, rfl⟩, hb.2⟩

/-- C65: when all senders are gone and the run ends without error, everything received was given to the
node in confirmed transactions, each message exactly once and in order. -/
theorem C65_flush (cfg : BroadcastCfg) (seq : Nat) (is : List (Input M)) (final : Replies) (q : Queue M)
    (h : runQueue cfg seq is final = (q, .ok ())) :
    (q.client.sent.map Tx.msgs).flatten = received is ∧ q.client.sequence = seq + q.client.sent.length := by
  have h2 : (runQueue cfg seq is final).2 = .ok () := by rw [h]
  obtain ⟨hr, hm0, hl⟩ := (runQueue_spec cfg seq is final).1 h2
  rw [h] at hr hm0
  obtain ⟨groups, pend, hs, hseq, hm, _, _, hlog⟩ := hr
  refine ⟨?_, hseq⟩
  have hp : pend = [] := by rw [hm0] at hm; simpa using hm.symm
  subst hp
  rw [← received_of_ok cfg is (Queue.init seq) hl, hs.msgs, ← hlog]
  simp [List.map_flatten]

/-- C65: after a tick or a forced broadcast nothing is left in the queue. -/
theorem C65_tick (cfg : BroadcastCfg) (seq : Nat) (is : List (Input M)) (r : Replies) (q : Queue M)
    (h : loop cfg (Queue.init seq) (is ++ [.tick r]) = (q, .ok ()) ∨
      loop cfg (Queue.init seq) (is ++ [.force r]) = (q, .ok ())) :
    q.msgs = [] ∧ (q.client.sent.map Tx.msgs).flatten = received is := by
  have hrec : ∀ (is : List (Input M)) i, received (is ++ [i]) = received is ++ received [i] := by
    intro is i
    induction is with
    | nil => rfl
    | cons j is ih => cases j <;> simp [received, ih]
  have key : ∀ i : Input M, (∀ q' : Queue M, turn cfg q' i = broadcastAll cfg q' r) →
      loop cfg (Queue.init seq) (is ++ [i]) = (q, .ok ()) → q.msgs = [] := by
    intro i hi hq
    suffices H : ∀ (is : List (Input M)) (q0 : Queue M), loop cfg q0 (is ++ [i]) = (q, .ok ()) → q.msgs = [] from
      H is _ hq
    intro is
    induction is with
    | nil =>
      intro q0 h0
      simp only [List.nil_append, loop, hi] at h0
      unfold broadcastAll at h0
      cases hm : q0.msgs with
      | nil => rw [hm] at h0; simp only [Prod.mk.injEq, and_true] at h0; rw [← h0]
      | cons a t =>
        rw [hm] at h0
        dsimp only at h0
        split at h0
        · simp at h0
        · rename_i q1 heq
          simp only [Prod.mk.injEq] at h0 heq
          rw [← h0.1, ← heq.1]
    | cons j is ih =>
      intro q0 h0
      simp only [List.cons_append, loop] at h0
      split at h0
      · simp at h0
      · exact ih _ h0
  rcases h with h | h
  · have h1 := key (.tick r) (fun _ => rfl) h
    refine ⟨h1, ?_⟩
    have := (C65_order cfg seq _ q h).1
    rw [h1, hrec] at this
    simpa [received] using this
  · have h1 := key (.force r) (fun _ => rfl) h
    refine ⟨h1, ?_⟩
    have := (C65_order cfg seq _ q h).1
    rw [h1, hrec] at this
    simpa [received] using this

/-- C65: however the run ends, the transactions given to the node carry the first so many of the received
messages, in order, each exactly once; only the last transaction can be unconfirmed; sequence
numbers are consecutive; no transaction is empty; and the gas limits of a transaction of two or more
messages add up to less than the batch limit. -/
theorem C65_batches (cfg : BroadcastCfg) (seq : Nat) (is : List (Input M)) (final : Replies) :
    let q := (runQueue cfg seq is final).1
    ∃ groups : List (List (M × Nat)),
      q.client.sent.map Tx.msgs = groups.map (List.map Prod.fst) ∧
      groups.flatten <+: receivedGas cfg is ∧
      (q.client.sent.map Tx.msgs).flatten <+: received is ∧
      (∀ g ∈ groups, g ≠ [] ∧ (2 ≤ g.length → gasOf g < cfg.batchGasLimit)) ∧
      q.client.sent.map Tx.sequence = List.range' seq q.client.sent.length ∧
      (q.client.sequence = seq + q.client.sent.length ∨
        q.client.sequence + 1 = seq + q.client.sent.length) := by
  have hs := runQueue_spec cfg seq is final
  have hpre : ∀ groups : List (List (M × Nat)), SentAre cfg seq (runQueue cfg seq is final).1.client groups →
      groups.flatten <+: receivedGas cfg is →
      ((runQueue cfg seq is final).1.client.sent.map Tx.msgs).flatten <+: received is := by
    intro groups h1 h2
    rw [h1.msgs, ← List.map_flatten]
    exact (h2.map _).trans (receivedGas_prefix cfg is)
  by_cases h : (runQueue cfg seq is final).2 = .ok ()
  · obtain ⟨⟨groups, pend, hs, hseq, _, _, _, hlog⟩, _⟩ := hs.1 h
    have hp : groups.flatten <+: receivedGas cfg is := by rw [← hlog]; exact List.prefix_append _ _
    exact ⟨groups, hs.msgs, hp, hpre groups hs hp,
      fun g hg => ⟨hs.nonempty g hg, hs.gas g hg⟩, hs.seqs, Or.inl hseq⟩
  · obtain ⟨groups, hs, hseq, hp⟩ := hs.2 h
    exact ⟨groups, hs.msgs, hp, hpre groups hs hp,
      fun g hg => ⟨hs.nonempty g hg, hs.gas g hg⟩, hs.seqs, hseq⟩

/-! ### Concrete runs -/

/-- a configuration with a batch limit of 100 gas and two retries -/
def exCfg : BroadcastCfg := ⟨2, id, id, 100⟩

/-- everything succeeds; the transaction is found by the second lookup -/
def exOk (gas : Nat) : Replies := ⟨some gas, true, true, fun i => if i = 0 then .notFound else .found 0⟩

/-- the transaction is never found -/
def exLost (gas : Nat) : Replies := ⟨some gas, true, true, fun _ => .notFound⟩

/-- messages 1-2 share a transaction, the third would reach the limit, the fourth exceeds it alone -/
def exInputs : List (Input Nat) :=
  [.tick (exOk 0), .msg 1 (some 40) (exOk 0), .msg 2 (some 50) (exOk 0), .msg 3 (some 10) (exOk 90),
   .msg 4 (some 200) (exOk 10), .force (exOk 200), .msg 5 (some 1) (exOk 0)]

example : ((runQueue exCfg 7 exInputs (exOk 1)).1.client.sent.map (fun t => (t.msgs, t.sequence))) =
    [([1, 2], 7), ([3], 8), ([4], 9), ([5], 10)] := by decide

example : (runQueue exCfg 7 exInputs (exOk 1)).2 = .ok () := by decide

/-- when the last transaction is not confirmed the run fails: message 5 is in a transaction the program
does not know to be confirmed, and the sequence number stays -/
example : (runQueue exCfg 7 exInputs (exLost 1)).2 = .error .txConfirmation ∧
    (runQueue exCfg 7 exInputs (exLost 1)).1.client.sequence = 10 := by decide

/-- A failing broadcast loses what was queued: the queue is emptied before the attempt. -/
theorem C65_failure_loses :
    ∃ (is : List (Input Nat)) (r : Replies),
      (loop exCfg (Queue.init 0) (is ++ [.tick r])).2 = .error .gasEstimation ∧
      (loop exCfg (Queue.init 0) (is ++ [.tick r])).1.msgs = [] ∧
      (loop exCfg (Queue.init 0) (is ++ [.tick r])).1.client.sent = [] ∧ received is = [1] :=
  ⟨[.msg 1 (some 40) (exOk 0)], ⟨none, true, true, fun _ => .notFound⟩, by decide⟩

end Amp.Ampd
