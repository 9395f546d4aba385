import Verif.Ampd.Pipeline
import Verif.Ampd.QueueProps
import Verif.Ampd.StallProps

/-! # C92: what handlers answer to the events of a block gets into transactions -/

namespace Amp.Ampd

variable {R A : Type}

/-! ### Specification -/

/-- `m` is made of the lists `ls` by taking first elements of them in some order, until all are used up -/
inductive Interleaves {α : Type} : List (List α) → List α → Prop
  | nil {ls : List (List α)} (h : ∀ l ∈ ls, l = []) : Interleaves ls []
  | cons {l₁ l₂ : List (List α)} {x : α} {l m : List α} (h : Interleaves (l₁ ++ l :: l₂) m) :
      Interleaves (l₁ ++ (x :: l) :: l₂) (x :: m)

/-- A process is true to the code: `outcome l e o` says that the handler with label `l` can end with `o` when given
`e`.  Every handler has an outcome for every event it was given, and is recorded as successful if it was; and
the queue received what handlers put into its channel, each handler's messages in order, and all of it if its
loop ended because all handlers had. -/
structure Genuine (W : World R A) (outcome : Label → Event A → Outcome → Prop) (cfg : BroadcastCfg)
    (f : StateFile) (p : Process) : Prop where
  labels : (p.run.handlers.map Prod.fst).Nodup
  outcomes : ∀ h ∈ p.run.handlers, (p.outcomes h.1).length = (handlerOut W f p.run h.1).1.length ∧
    ∀ (i : Nat) (e : Event A) (o : Outcome), (handlerOut W f p.run h.1).1[i]? = some e →
      (p.outcomes h.1)[i]? = some o → outcome h.1 e o ∧
        ∀ rep, h.2.replies[i]? = some rep → (rep.handled = true ↔ o.succeeded)
  channel : ∃ m, Interleaves (p.run.handlers.map (fun h => p.answers h.1)) m ∧ received p.inputs <+: m ∧
    (p.final.isSome → (loop cfg (Queue.init p.sequence) p.inputs).2 = .ok () → received p.inputs = m)

/-- the queued broadcaster of the process ended, and without an error -/
def Process.Drained (cfg : BroadcastCfg) (p : Process) : Prop := p.final.isSome ∧ (p.queue cfg).2 = .ok ()

/-- the queued broadcaster of the process ended without an error, or it received `t` and broadcast without an error
at a later tick -/
def Process.Caught (cfg : BroadcastCfg) (p : Process) (t : ExecTx) : Prop :=
  p.Drained cfg ∨ ∃ is₁ r is₂, p.inputs = is₁ ++ .tick r :: is₂ ∧ t ∈ received is₁ ∧
    (loop cfg (Queue.init p.sequence) (is₁ ++ [.tick r])).2 = .ok ()

/-- a condition on every process of a history, each with the state file it starts from -/
def EachProcess (W : World R A) (P : StateFile → Process → Prop) : StateFile → List Process → Prop
  | _, [] => True
  | f, p :: ps => P f p ∧ EachProcess W P (fileAfter W f p.run) ps

/-! ### Lemmas -/

theorem Interleaves.mem {α : Type} {ls : List (List α)} {m : List α} (h : Interleaves ls m) (x : α) :
    x ∈ m ↔ ∃ l ∈ ls, x ∈ l := by
  induction h with
  | nil h =>
    simp only [List.not_mem_nil, false_iff, not_exists, not_and]
    intro l hl hx
    rw [h l hl] at hx
    simp at hx
  | @cons l₁ l₂ y l m h ih =>
    rw [List.mem_cons, ih]
    simp only [List.mem_append, List.mem_cons]
    constructor
    · rintro (rfl | ⟨k, (hk | rfl | hk), hx⟩)
      · exact ⟨x :: l, Or.inr (Or.inl rfl), List.mem_cons_self ..⟩
      · exact ⟨k, Or.inl hk, hx⟩
      · exact ⟨y :: k, Or.inr (Or.inl rfl), List.mem_cons_of_mem _ hx⟩
      · exact ⟨k, Or.inr (Or.inr hk), hx⟩
    · rintro ⟨k, (hk | rfl | hk), hx⟩
      · exact Or.inr ⟨k, Or.inl hk, hx⟩
      · rcases List.mem_cons.mp hx with rfl | hx
        · exact Or.inl rfl
        · exact Or.inr ⟨l, Or.inr (Or.inl rfl), hx⟩
      · exact Or.inr ⟨k, Or.inr (Or.inr hk), hx⟩

theorem Interleaves.sublist {α : Type} {ls : List (List α)} {m : List α} (h : Interleaves ls m) :
    ∀ l ∈ ls, l.Sublist m := by
  induction h with
  | nil h => intro l hl; rw [h l hl]
  | @cons l₁ l₂ y l m h ih =>
    intro k hk
    simp only [List.mem_append, List.mem_cons] at hk
    rcases hk with hk | rfl | hk
    · exact (ih k (by simp [hk])).cons _
    · exact (ih l (by simp)).cons_cons _
    · exact (ih k (by simp [hk])).cons _

theorem eachProcess_runs {W : World R A} {P : StateFile → Run → Prop} {f : StateFile} {ps : List Process} :
    EachRun W P f (ps.map Process.run) ↔ EachProcess W (fun f p => P f p.run) f ps := by
  induction ps generalizing f with
  | nil => rfl
  | cons p ps ih => simp only [List.map_cons, EachRun, EachProcess, ih]

theorem eachProcess_append {W : World R A} {P : StateFile → Process → Prop} {f : StateFile} {ps ps' : List Process} :
    EachProcess W P f (ps ++ ps') ↔
      EachProcess W P f ps ∧ EachProcess W P ((ps.map Process.run).foldl (fileAfter W) f) ps' := by
  induction ps generalizing f with
  | nil => simp [EachProcess]
  | cons p ps ih => simp [EachProcess, ih, and_assoc]

/-- the transactions of a process are made of a beginning of what the queue received -/
theorem transactions_prefix (cfg : BroadcastCfg) (p : Process) :
    ((p.transactions cfg).map Tx.msgs).flatten <+: received p.inputs := by
  unfold Process.transactions Process.queue
  cases hfin : p.final with
  | some r => exact (C65_batches cfg p.sequence p.inputs r).choose_spec.2.2.1
  | none =>
    -- as if a last broadcast failed before anything was given to the node
    have h := (C65_batches cfg p.sequence p.inputs ⟨none, true, true, fun _ => .notFound⟩).choose_spec.2.2.1
    have heq : (runQueue cfg p.sequence p.inputs ⟨none, true, true, fun _ => .notFound⟩).1.client =
        (loop cfg (Queue.init p.sequence) p.inputs).1.client := by
      unfold runQueue
      cases hl : loop cfg (Queue.init p.sequence) p.inputs with
      | mk q res =>
        cases res with
        | error e => rfl
        | ok u =>
          cases u
          simp only [broadcastAll]
          cases q.msgs <;> simp [broadcast, estimateFee]
    rw [heq] at h
    exact h

theorem drained_received {cfg : BroadcastCfg} {p : Process} (h : p.Drained cfg) :
    ((p.transactions cfg).map Tx.msgs).flatten = received p.inputs ∧
      (p.queue cfg).1.client.sequence = p.sequence + (p.transactions cfg).length ∧
      (loop cfg (Queue.init p.sequence) p.inputs).2 = .ok () := by
  obtain ⟨h1, h2⟩ := h
  obtain ⟨r, hr⟩ := Option.isSome_iff_exists.mp h1
  unfold Process.transactions Process.queue at *
  rw [hr] at h2 ⊢
  simp only at h2 ⊢
  obtain ⟨h3, h4⟩ := C65_flush cfg p.sequence p.inputs r (runQueue cfg p.sequence p.inputs r).1 (by rw [← h2])
  exact ⟨h3, h4, ((runQueue_spec cfg p.sequence p.inputs r).1 h2).2.2⟩

/-- transactions given to the node stay given -/
theorem broadcastAll_sent (cfg : BroadcastCfg) (q : Queue ExecTx) (r : Replies) :
    q.client.sent <+: (broadcastAll cfg q r).1.client.sent := by
  unfold broadcastAll
  cases q.msgs with
  | nil => exact List.prefix_rfl
  | cons m t =>
    rcases broadcast_cases cfg q.client (m :: t) r with ⟨h, _⟩ | ⟨gas, fee, h, _⟩
    · show q.client.sent <+: (broadcast cfg q.client (m :: t) r).1.sent
      rw [h]; exact List.prefix_rfl
    · show q.client.sent <+: (broadcast cfg q.client (m :: t) r).1.sent
      rw [h]; exact List.prefix_append _ _

theorem turn_sent (cfg : BroadcastCfg) (q : Queue ExecTx) (i : Input ExecTx) :
    q.client.sent <+: (turn cfg q i).1.client.sent := by
  have hpush : ∀ (q : Queue ExecTx) m g, (push q m g).1.client = q.client := by
    intro q m g; unfold push; split <;> rfl
  cases i with
  | tick r => exact broadcastAll_sent cfg q r
  | force r => exact broadcastAll_sent cfg q r
  | msg m gas r =>
    cases hf : estimateFee cfg gas with
    | error e => simp only [turn, hf]; exact List.prefix_rfl
    | ok x =>
      obtain ⟨g, fee⟩ := x
      simp only [turn, hf]
      split
      · exact List.prefix_rfl
      · split
        · have hb := broadcastAll_sent cfg q r
          cases hx : broadcastAll cfg q r with
          | mk q' res =>
            rw [hx] at hb
            cases res with
            | error e => exact hb
            | ok u => simp only [hpush]; exact hb
        · rw [hpush]; exact List.prefix_rfl

theorem loop_sent (cfg : BroadcastCfg) (is : List (Input ExecTx)) (q : Queue ExecTx) :
    q.client.sent <+: (loop cfg q is).1.client.sent := by
  induction is generalizing q with
  | nil => exact List.prefix_rfl
  | cons i is ih =>
    have h := turn_sent cfg q i
    unfold loop
    cases hx : turn cfg q i with
    | mk q' res =>
      rw [hx] at h
      cases res with
      | error e => exact h
      | ok u => exact h.trans (ih q')

theorem loop_append (cfg : BroadcastCfg) (is is' : List (Input ExecTx)) (q : Queue ExecTx)
    (h : (loop cfg q is).2 = .ok ()) : loop cfg q (is ++ is') = loop cfg (loop cfg q is).1 is' := by
  induction is generalizing q with
  | nil => rfl
  | cons i is ih =>
    cases hx : turn cfg q i with
    | mk q' res =>
      cases res with
      | error e => simp [loop, hx] at h
      | ok u =>
        simp only [loop, hx] at h
        simp only [List.cons_append, loop, hx]
        exact ih q' h

/-- what the process gave to the node includes what its loop did -/
theorem loop_transactions (cfg : BroadcastCfg) (p : Process) :
    (loop cfg (Queue.init p.sequence) p.inputs).1.client.sent <+: p.transactions cfg := by
  unfold Process.transactions Process.queue
  cases p.final with
  | none => exact List.prefix_rfl
  | some r =>
    simp only [runQueue]
    cases hl : loop cfg (Queue.init p.sequence) p.inputs with
    | mk q res =>
      cases res with
      | error e => exact List.prefix_rfl
      | ok u => exact broadcastAll_sent cfg q r

/-- what the queue received before a successful tick is in transactions -/
theorem ticked {cfg : BroadcastCfg} {p : Process} {t : ExecTx} {is₁ is₂ : List (Input ExecTx)} {r : Replies}
    (hi : p.inputs = is₁ ++ .tick r :: is₂) (ht : t ∈ received is₁)
    (hok : (loop cfg (Queue.init p.sequence) (is₁ ++ [.tick r])).2 = .ok ()) :
    ∃ tx ∈ p.transactions cfg, t ∈ tx.msgs := by
  obtain ⟨_, h2⟩ := C65_tick cfg p.sequence is₁ r (loop cfg (Queue.init p.sequence) (is₁ ++ [.tick r])).1
    (Or.inl (by rw [← hok]))
  rw [← h2] at ht
  obtain ⟨k, hk, htk⟩ := List.mem_flatten.mp ht
  obtain ⟨tx, htx, rfl⟩ := List.mem_map.mp hk
  refine ⟨tx, (loop_transactions cfg p).subset ?_, htk⟩
  rw [hi, show is₁ ++ Input.tick r :: is₂ = (is₁ ++ [.tick r]) ++ is₂ by simp, loop_append cfg _ _ _ hok]
  exact (loop_sent cfg is₂ _).subset htx

theorem queued_of_succeeded {o : Outcome} (h : o.succeeded) : o.queued = o.sent := by
  unfold Outcome.succeeded at h
  unfold Outcome.queued
  rw [h]

/-- an event of an acknowledged block was given to the handler, and not as the last one -/
theorem acked_position {W : World R A} {given : List (Event A)} {first k b : Nat}
    (h : blocks W first k <+: given) (hb : b ∈ List.range' first k) {r : R} {a : A}
    (hr : r ∈ contents (W.chain b)) (hd : W.decode r = some a) :
    ∃ (j : Nat), given[j]? = some (.abci a) ∧ j + 1 < given.length := by
  obtain ⟨i, hi1, hi2⟩ := mem_frame hr hd
  obtain ⟨n, m, rfl, rfl⟩ : ∃ n m, k = n + (1 + m) ∧ b = first + n := by
    rw [List.mem_range'_1] at hb
    exact ⟨b - first, k - (b - first) - 1, by omega, by omega⟩
  have hblocks : blocks W first (n + (1 + m)) = blocks W first n ++ frame W (first + n) ++
      blocks W (first + n + 1) m := by
    unfold blocks
    rw [← List.range'_append_1 (m := n) (n := 1 + m), ← List.range'_append_1 (m := 1) (n := m)]
    simp
  rw [hblocks] at h
  obtain ⟨rest, hrest⟩ := h
  refine ⟨(blocks W first n).length + i, ?_, ?_⟩
  · rw [← hrest, List.append_assoc, List.append_assoc, List.getElem?_append_right (by omega),
      Nat.add_sub_cancel_left, List.getElem?_append_left (by omega)]
    exact hi1
  · rw [← hrest]
    simp only [List.length_append]
    omega

/-- an event of a block acknowledged in a process was answered -/
theorem acked_outcome {W : World R A} {outcome : Label → Event A → Outcome → Prop} {cfg : BroadcastCfg}
    {f : StateFile} {p : Process} {l : Label} {s : Nat} (hs : startHeight (startFrom f) p.run.sub = some s)
    (hreg : NoRegress s p.run.sub.ticks) (hlag : NoLagWhileSkipping W f p.run l) (hg : Genuine W outcome cfg f p)
    {b : Nat} (hb : b ∈ (handlerOut W f p.run l).2) {r : R} {a : A}
    (hr : r ∈ contents (W.chain b)) (hd : W.decode r = some a) :
    (∃ h ∈ p.run.handlers, h.1 = l) ∧ ∃ o ∈ p.outcomes l, outcome l (.abci a) o ∧ o.succeeded := by
  obtain ⟨k, N, h1, h2, _⟩ := C67_run W f p.run l s _ hs hreg hlag rfl
  rw [h1] at hb
  obtain ⟨j, hj1, hj2⟩ := acked_position h2 hb hr hd
  have hout := hg.outcomes
  unfold handlerOut at hj1 hj2
  cases hfind : p.run.handlers.find? (fun h => decide (h.1 = l)) with
  | none => rw [hfind] at hj1; simp at hj1
  | some h =>
    have hl : h.1 = l := by simpa using List.find?_some hfind
    have hmem := List.mem_of_find?_eq_some hfind
    obtain ⟨hlen, hev⟩ := hout h hmem
    rw [hfind] at hj1 hj2
    simp only at hj1 hj2
    have hho : handlerOut W f p.run h.1 = runHandler f (published W f p.run) h := by
      rw [hl]; unfold handlerOut; rw [hfind]
    rw [hho] at hlen hev
    have hlt : j < (p.outcomes h.1).length := by rw [hlen]; omega
    obtain ⟨o, ho⟩ : ∃ o, (p.outcomes h.1)[j]? = some o := ⟨_, List.getElem?_eq_getElem hlt⟩
    obtain ⟨hx, hrep⟩ := hev j _ o hj1 ho
    have hr' : ∃ rep, h.2.replies[j]? = some rep ∧ rep.handled = true := by
      unfold runHandler at hj2
      dsimp only at hj2
      split at hj2 <;> exact consume_handled _ _ _ hj2
    obtain ⟨rep, hr1, hr2⟩ := hr'
    subst hl
    exact ⟨⟨h, hmem, rfl⟩, o, List.mem_of_getElem? ho, hx, (hrep rep hr1).mp hr2⟩

theorem durableAcks_process {W : World R A} {l : Label} {f : StateFile} {ps : List Process} {b : Nat}
    (h : b ∈ durableAcks W l f (ps.map Process.run)) : ∃ ps₁ p ps₂, ps = ps₁ ++ p :: ps₂ ∧ p.run.flushed = true ∧
      b ∈ (handlerOut W ((ps₁.map Process.run).foldl (fileAfter W) f) p.run l).2 := by
  induction ps generalizing f with
  | nil => simp [durableAcks] at h
  | cons p ps ih =>
    rw [List.map_cons, durableAcks] at h
    rcases List.mem_append.mp h with h | h
    · split at h
      · rename_i hfl
        exact ⟨[], p, ps, rfl, hfl, h⟩
      · simp at h
    · obtain ⟨ps₁, p', ps₂, rfl, h1, h2⟩ := ih h
      exact ⟨p :: ps₁, p', ps₂, rfl, h1, by simpa using h2⟩

theorem handlerOut_unstarted {W : World R A} {f : StateFile} {r : Run} {l : Label}
    (hs : startHeight (startFrom f) r.sub = none) : handlerOut W f r l = ([], []) := by
  unfold handlerOut
  split
  · rfl
  · unfold runHandler published runSub
    rw [hs]
    dsimp only
    split <;> rw [consume_lagged]
    · exact stream_nil _
    · exact fun it hit => stream_nil _ it (List.dropWhile_subset _ hit)

/-! ### C92 -/

/-- C92: in every process, whatever fails or stops in it, the messages of the transactions given to the node are, one
after the other, a beginning of the handlers' answers in some interleaving: nothing else gets into
transactions, nothing more often than it was answered, and each handler's answers keep their order.  If the
queue ended without an error, they are all the answers of all handlers. -/
theorem C92_transactions (W : World R A) (outcome : Label → Event A → Outcome → Prop) (cfg : BroadcastCfg)
    (f : StateFile) (p : Process) (hg : Genuine W outcome cfg f p) :
    ∃ m, Interleaves (p.run.handlers.map (fun h => (p.outcomes h.1).flatMap Outcome.queued)) m ∧
      ((p.transactions cfg).map Tx.msgs).flatten <+: m ∧
      (p.Drained cfg → ((p.transactions cfg).map Tx.msgs).flatten = m) := by
  obtain ⟨m, h1, h2, h3⟩ := hg.channel
  refine ⟨m, h1, (transactions_prefix cfg p).trans h2, ?_⟩
  intro hd
  obtain ⟨d1, _, d3⟩ := drained_received hd
  rw [d1]
  exact h3 hd.1 d3

/-- C92: what gets into a transaction is the answer of a configured handler to an event that it was given. -/
theorem C92_origin (W : World R A) (outcome : Label → Event A → Outcome → Prop) (cfg : BroadcastCfg)
    (f : StateFile) (p : Process) (hg : Genuine W outcome cfg f p) (tx : Tx ExecTx) (htx : tx ∈ p.transactions cfg)
    (t : ExecTx) (ht : t ∈ tx.msgs) :
    ∃ h ∈ p.run.handlers, ∃ e ∈ (handlerOut W f p.run h.1).1, ∃ o, outcome h.1 e o ∧ o.succeeded ∧ t ∈ o.sent := by
  obtain ⟨m, h1, h2, _⟩ := C92_transactions W outcome cfg f p hg
  have hm : t ∈ m := h2.subset (List.mem_flatten.mpr ⟨_, List.mem_map_of_mem htx, ht⟩)
  obtain ⟨k, hk, hx⟩ := (h1.mem t).mp hm
  obtain ⟨h, hh, rfl⟩ := List.mem_map.mp hk
  obtain ⟨o, ho, hto⟩ := List.mem_flatMap.mp hx
  obtain ⟨hlen, hev⟩ := hg.outcomes h hh
  obtain ⟨i, hi⟩ := List.mem_iff_getElem?.mp ho
  have hlt : i < (handlerOut W f p.run h.1).1.length := by
    rw [← hlen]; exact (List.getElem?_eq_some_iff.mp hi).1
  have hsucc : o.succeeded := by
    unfold Outcome.queued at hto
    unfold Outcome.succeeded
    split at hto
    · assumption
    · simp at hto
  refine ⟨h, hh, _, List.getElem_mem hlt, o, (hev i _ o (List.getElem?_eq_getElem hlt) hi).1, hsucc, ?_⟩
  rw [← queued_of_succeeded hsucc]
  exact hto

/-- C92: after any history of runs, in any process, running or ended: every event of every block that a handler
completed in it was answered by the handler successfully; and what it answered is in a transaction given to the
node if the queue received it and broadcast without an error at a later tick, or ended without an error. -/
theorem C92_answered (W : World R A) (outcome : Label → Event A → Outcome → Prop) (cfg : BroadcastCfg)
    (l : Label) (rs : List Run) (p : Process) (h : Sane W l [] (rs ++ [p.run]))
    (hg : Genuine W outcome cfg (fileAfterAll W rs) p)
    (b : Nat) (hb : b ∈ (handlerOut W (fileAfterAll W rs) p.run l).2) (r : R) (a : A)
    (hr : r ∈ contents (W.chain b)) (hd : W.decode r = some a) :
    ∃ o ∈ p.outcomes l, outcome l (.abci a) o ∧ o.succeeded ∧
      ∀ t ∈ o.sent, p.Caught cfg t → ∃ tx ∈ p.transactions cfg, t ∈ tx.msgs := by
  have hlag := ((eachRun_append W _ [] rs [p.run]).mp h.nolag).2.1
  cases hs : startHeight (startFrom (fileAfterAll W rs)) p.run.sub with
  | none => rw [handlerOut_unstarted hs] at hb; simp at hb
  | some s =>
    have hreg := inv_run W rs p.run [] 0 (by simp) (fun _ _ => Nat.zero_le _) h.mono s hs
    obtain ⟨⟨hh, hm, hl⟩, o, ho, hx, hsucc⟩ := acked_outcome hs hreg hlag hg hb hr hd
    refine ⟨o, ho, hx, hsucc, ?_⟩
    rintro t ht (hdr | ⟨is₁, rep, is₂, h1, h2, h3⟩)
    · obtain ⟨m, h1, _, h3⟩ := C92_transactions W outcome cfg _ p hg
      have htm : t ∈ ((p.transactions cfg).map Tx.msgs).flatten := by
        rw [h3 hdr]
        refine (h1.mem t).mpr ⟨_, List.mem_map_of_mem hm, List.mem_flatMap.mpr ⟨o, ?_, ?_⟩⟩
        · rw [hl]; exact ho
        · rw [queued_of_succeeded hsucc]; exact ht
      obtain ⟨k, hk, htk⟩ := List.mem_flatten.mp htm
      obtain ⟨tx, htx, rfl⟩ := List.mem_map.mp hk
      exact ⟨tx, htx, htk⟩
    · exact ticked h1 h2 h3

/-- C92, the part that holds across restarts: over any history of processes (with failures and kills anywhere) in
which the queue of every process that wrote its state ended without an error, every event of every block that is
on record as completed by a handler was answered by it successfully, and the answer is in transactions of that
process, all of which were confirmed (the account's sequence number advanced by their number). -/
theorem C92_answered_partial (W : World R A) (outcome : Label → Event A → Outcome → Prop) (cfg : BroadcastCfg)
    (l : Label) (ps : List Process) (h : Sane W l [] (ps.map Process.run))
    (hg : EachProcess W (Genuine W outcome cfg) [] ps) (hq : ∀ p ∈ ps, p.run.flushed = true → p.Drained cfg)
    (b : Nat) (hb : b ∈ durableAcks W l [] (ps.map Process.run)) (r : R) (a : A)
    (hr : r ∈ contents (W.chain b)) (hd : W.decode r = some a) :
    ∃ p ∈ ps, ∃ o, outcome l (.abci a) o ∧ o.succeeded ∧
      (∀ t ∈ o.sent, ∃ tx ∈ p.transactions cfg, t ∈ tx.msgs) ∧
      (p.queue cfg).1.client.sequence = p.sequence + (p.transactions cfg).length := by
  obtain ⟨ps₁, p, ps₂, rfl, hfl, hack⟩ := durableAcks_process hb
  have hp : p ∈ ps₁ ++ p :: ps₂ := by simp
  have hgp := (eachProcess_append.mp hg).2.1
  rw [show (ps₁ ++ p :: ps₂).map Process.run = (ps₁.map Process.run ++ [p.run]) ++ ps₂.map Process.run by simp] at h
  have hmono := h.mono
  rw [allReports_append] at hmono
  have hs : Sane W l [] (ps₁.map Process.run ++ [p.run]) := ⟨((eachRun_append W _ [] _ _).mp h.labels).1,
    ((eachRun_append W _ [] _ _).mp h.nolag).1, (List.pairwise_append.mp hmono).1⟩
  obtain ⟨o, _, hx, hsucc, hsent⟩ := C92_answered W outcome cfg l (ps₁.map Process.run) p hs hgp b hack r a hr hd
  have hdr := hq p hp hfl
  exact ⟨p, hp, o, hx, hsucc, fun t ht => hsent t ht (Or.inl hdr), (drained_received hdr).2.1⟩

end Amp.Ampd
