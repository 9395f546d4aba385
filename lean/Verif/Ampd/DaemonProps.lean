import Verif.Ampd.EventsProps

/-! # C67: across restarts every handler goes on with the block after the last one it completed -/

namespace Amp.Ampd

variable {R A : Type}

/-! ### Lemmas -/

theorem min_le_of_get {f : StateFile} {l : Label} {c : Nat} (h : f.get? l = some c) :
    ∃ m, minHeight f = some m ∧ m ≤ c := by
  have hm : c ∈ f.map Prod.snd := List.mem_map.mpr ⟨(l, c), OMap.mem_of_get? h, rfl⟩
  unfold minHeight
  cases hx : (f.map Prod.snd).min? with
  | none => rw [List.min?_eq_none_iff] at hx; rw [hx] at hm; simp at hm
  | some m => exact ⟨m, rfl, (List.min?_eq_some_iff.mp hx).2 c hm⟩

theorem min_mem {f : StateFile} {m : Nat} (h : minHeight f = some m) : ∃ l, (l, m) ∈ f := by
  have := (List.min?_eq_some_iff.mp h).1
  obtain ⟨⟨l, x⟩, h1, h2⟩ := List.mem_map.mp this
  simp only at h2
  subst h2
  exact ⟨l, h1⟩

theorem recordAll_get (f : StateFile) (l l' : Label) (acks : List Nat) :
    (recordAll f l acks).get? l' = if l' = l then (acks.getLast?).or (f.get? l) else f.get? l' := by
  induction acks using List.reverseRecOn with
  | nil =>
    simp only [recordAll, List.foldl_nil, List.getLast?_nil, Option.none_or]
    split
    · subst_vars; rfl
    · rfl
  | append_singleton as a ih =>
    unfold recordAll at ih ⊢
    rw [List.foldl_append, List.foldl_cons, List.foldl_nil, OMap.get?_set, ih]
    by_cases h : l' = l
    · simp [h]
    · simp [h]

theorem recordHandlers_get (f0 : StateFile) (pub : List (Event A)) (hs : List (Label × HandlerIn))
    (hnd : (hs.map Prod.fst).Nodup) (f : StateFile) (l : Label) :
    (recordHandlers f0 pub hs f).get? l =
      match hs.find? (fun h => h.1 = l) with
      | none => f.get? l
      | some h => ((runHandler f0 pub h).2.getLast?).or (f.get? l) := by
  induction hs generalizing f with
  | nil => rfl
  | cons h hs ih =>
    rw [List.map_cons, List.nodup_cons] at hnd
    rw [recordHandlers, ih hnd.2, List.find?_cons]
    by_cases he : h.1 = l
    · have hnone : hs.find? (fun h => h.1 = l) = none := by
        rw [List.find?_eq_none]
        intro x hx hxl
        apply hnd.1
        rw [he, ← of_decide_eq_true hxl]
        exact List.mem_map_of_mem hx
      rw [hnone]
      simp only [he, decide_true]
      rw [recordAll_get, if_pos rfl]
    · simp only [he, decide_false]
      have : ∀ acks, (recordAll f h.1 acks).get? l = f.get? l := by
        intro acks
        rw [recordAll_get, if_neg (fun h' => he h'.symm)]
      rw [this]

theorem fileAfter_get (W : World R A) (f : StateFile) (r : Run) (l : Label)
    (hnd : (r.handlers.map Prod.fst).Nodup) :
    (fileAfter W f r).get? l =
      if r.flushed then ((handlerOut W f r l).2.getLast?).or (f.get? l) else f.get? l := by
  unfold fileAfter handlerOut
  split
  · rw [recordHandlers_get _ _ _ hnd]
    cases r.handlers.find? (fun h => decide (h.1 = l)) <;> simp
  · rfl

theorem recordAll_mem {f : StateFile} {l : Label} {acks : List Nat} {e : Label × Nat}
    (h : e ∈ recordAll f l acks) : e ∈ f ∨ e.2 ∈ acks := by
  induction acks using List.reverseRecOn with
  | nil => exact Or.inl h
  | append_singleton as a ih =>
    unfold recordAll at h ih
    rw [List.foldl_append, List.foldl_cons, List.foldl_nil] at h
    rcases OMap.mem_set h with h | h
    · right; subst h; simp
    · rcases ih h with h | h
      · exact Or.inl h
      · right; simp [h]

theorem recordHandlers_mem {f0 : StateFile} {pub : List (Event A)} {hs : List (Label × HandlerIn)}
    {f : StateFile} {e : Label × Nat} (h : e ∈ recordHandlers f0 pub hs f) :
    e ∈ f ∨ ∃ h ∈ hs, e.2 ∈ (runHandler f0 pub h).2 := by
  induction hs generalizing f with
  | nil => exact Or.inl h
  | cons x hs ih =>
    rcases ih h with h | ⟨y, hy, hm⟩
    · rcases recordAll_mem h with h | h
      · exact Or.inl h
      · exact Or.inr ⟨x, by simp, h⟩
    · exact Or.inr ⟨y, by simp [hy], hm⟩

theorem mem_ends_of_mem {es : List (Event A)} {k : Nat} : k ∈ ends es ↔ Event.blockEnd k ∈ es := by
  induction es with
  | nil => simp [ends]
  | cons e es ih => cases e <;> simp [ends, ih]

theorem okPrefix_mem {items : List (Item A)} {e : Event A} (h : e ∈ okPrefix items) : Item.ok e ∈ items := by
  induction items with
  | nil => simp [okPrefix] at h
  | cons i is ih =>
    cases i with
    | lagged => simp [okPrefix] at h
    | ok x =>
      simp only [okPrefix, List.mem_cons] at h
      rcases h with rfl | h
      · simp
      · simp [ih h]

theorem stream_mem {rs : List Recv} {es : List (Event A)} {e : Event A} (h : Item.ok e ∈ stream rs es) :
    e ∈ es := by
  induction rs generalizing es with
  | nil => simp [stream] at h
  | cons r rs ih =>
    cases r with
    | lag n =>
      simp only [stream, List.mem_cons, reduceCtorEq, false_or] at h
      exact List.mem_of_mem_drop (ih h)
    | deliver =>
      cases es with
      | nil => simp [stream] at h
      | cons x es =>
        simp only [stream, List.mem_cons, Item.ok.injEq] at h
        rcases h with rfl | h
        · simp
        · simp [ih h]

/-- whatever the subscription does, only published blocks are acknowledged -/
theorem ack_published {f : StateFile} {pub : List (Event A)} {h : Label × HandlerIn} {k : Nat}
    (hk : k ∈ (runHandler f pub h).2) : Event.blockEnd k ∈ pub := by
  unfold runHandler at hk
  simp only at hk
  cases hf : f.get? h.1 with
  | none =>
    rw [hf] at hk
    simp only at hk
    obtain ⟨h1, h2⟩ := consume_spec (stream h.2.recv pub) h.2.replies
    exact stream_mem (okPrefix_mem (h1.subset (mem_ends_of_mem.mp (h2.subset hk))))
  | some c =>
    rw [hf] at hk
    simp only at hk
    obtain ⟨h1, h2⟩ := consume_spec (skipToBlock (c + 1) (stream h.2.recv pub)) h.2.replies
    have := okPrefix_mem (h1.subset (mem_ends_of_mem.mp (h2.subset hk)))
    exact stream_mem ((List.dropWhile_sublist _).subset this)

/-! ### One run -/

/-- One run of the daemon.  Let `first` be the block after the last one recorded for the handler in the
state file or, if none is recorded, the block the publisher starts at.  However the node, the
subscription, the handler and the shutdown behave, the handler is given a beginning of the blocks from
`first` on, nothing else; it acknowledges consecutive blocks from `first` on, all events of which it has
handled. -/
theorem C67_run (W : World R A) (f : StateFile) (r : Run) (l : Label) (s first : Nat)
    (hs : startHeight (startFrom f) r.sub = some s) (hreg : NoRegress s r.sub.ticks)
    (hlag : NoLagWhileSkipping W f r l)
    (hfirst : first = match f.get? l with | some c => c + 1 | none => s) :
    ∃ k N, (handlerOut W f r l).2 = List.range' first k ∧
      blocks W first k <+: (handlerOut W f r l).1 ∧ (handlerOut W f r l).1 <+: blocks W first N := by
  unfold handlerOut
  cases hf : r.handlers.find? (fun h => decide (h.1 = l)) with
  | none => exact ⟨0, 0, rfl, List.prefix_rfl, List.nil_prefix⟩
  | some h =>
    have hl : h.1 = l := by simpa using List.find?_some hf
    have hmem := List.mem_of_find?_eq_some hf
    obtain ⟨n, hp, _, _, _⟩ := subLoop_spec W s r.sub.ticks hreg
    have hpub : published W f r <+: blocks W s (n + 1) := by
      have : published W f r = (subLoop W s r.sub.ticks).1 := by
        unfold published runSub; rw [hs]
      rw [this]
      exact prefix_blocks_of_published hp
    have hok := (okPrefix_stream h.2.recv (published W f r)).trans hpub
    simp only
    unfold runHandler
    simp only [hl]
    cases hg : f.get? l with
    | none =>
      rw [hg] at hfirst
      simp only at hfirst
      subst hfirst
      obtain ⟨k, h1, h2, h3⟩ := consume_blocks W first (n + 1) _ h.2.replies hok
      exact ⟨k, n + 1, h1, h2, h3⟩
    | some c =>
      rw [hg] at hfirst
      simp only at hfirst
      subst hfirst
      have hsc : s ≤ c + 1 := by
        obtain ⟨m, hm, hmc⟩ := min_le_of_get hg
        unfold startFrom at hs
        rw [hm] at hs
        simp only [Option.map_some, startHeight, Option.some.injEq] at hs
        omega
      have hnl := hlag h hmem hl
      unfold skipped at hnl
      rw [hl, hg] at hnl
      simp only at hnl
      have hskip := okPrefix_skip (c + 1) _ hnl
      have := skip_prefix W (n + 1) s (c + 1) hsc _ hok
      rw [← hskip] at this
      obtain ⟨k, h1, h2, h3⟩ := consume_blocks W (c + 1) _ _ h.2.replies this
      exact ⟨k, _, h1, h2, h3⟩

/-- What is recorded for a handler after a run is the last block it acknowledged, if the state was written and
there is one; otherwise what was recorded before. -/
theorem C67_recorded (W : World R A) (f : StateFile) (r : Run) (l : Label)
    (hnd : (r.handlers.map Prod.fst).Nodup) :
    (fileAfter W f r).get? l =
      if r.flushed then ((handlerOut W f r l).2.getLast?).or (f.get? l) else f.get? l :=
  fileAfter_get W f r l hnd

/-! ### Histories of runs -/

/-- what a handler with a block height `c` on record can rely on -/
structure Sane (W : World R A) (l : Label) (f : StateFile) (rs : List Run) : Prop where
  labels : EachRun W (fun _ r => (r.handlers.map Prod.fst).Nodup) f rs
  nolag : EachRun W (fun f r => NoLagWhileSkipping W f r l) f rs
  mono : (allReports W f rs).Pairwise (· ≤ ·)

/-- recorded heights are not above later reports -/
theorem inv_step (W : World R A) (f : StateFile) (r : Run) (rs : List Run) (B : Nat)
    (hB : ∀ e ∈ f, e.2 ≤ B) (hge : ∀ x ∈ allReports W f (r :: rs), B ≤ x)
    (hmono : (allReports W f (r :: rs)).Pairwise (· ≤ ·)) :
    (∀ s, startHeight (startFrom f) r.sub = some s → NoRegress s r.sub.ticks) ∧
    ∃ B', (∀ e ∈ fileAfter W f r, e.2 ≤ B') ∧ ∀ x ∈ allReports W (fileAfter W f r) rs, B' ≤ x := by
  have hall : allReports W f (r :: rs) = runReports f r ++ allReports W (fileAfter W f r) rs := rfl
  rw [hall] at hge hmono
  obtain ⟨hm1, hm2, hm3⟩ := List.pairwise_append.mp hmono
  have hreg : ∀ s, startHeight (startFrom f) r.sub = some s → NoRegress s r.sub.ticks := by
    intro s hs
    unfold runReports at hm1 hge
    refine ⟨(List.pairwise_append.mp hm1).2.1, ?_⟩
    intro x hx
    cases hsf : startFrom f with
    | none =>
      rw [hsf] at hs hm1
      simp only [startHeight] at hs
      rw [hs] at hm1
      have := (List.pairwise_append.mp hm1).2.2 s (by simp) x hx
      omega
    | some s' =>
      rw [hsf] at hs
      simp only [startHeight, Option.some.injEq] at hs
      subst hs
      unfold startFrom at hsf
      cases hm : minHeight f with
      | none => rw [hm] at hsf; simp at hsf
      | some m =>
        rw [hm] at hsf
        simp only [Option.map_some, Option.some.injEq] at hsf
        obtain ⟨l', hl'⟩ := min_mem hm
        have h1 := hB _ hl'
        have h2 := hge x (by simp [hx])
        simp only at h1
        omega
  refine ⟨hreg, ?_⟩
  -- heights acknowledged in the run are below a report of the run
  have hack : ∀ h : Label × HandlerIn, ∀ k ∈ (runHandler f (published W f r) h).2,
      ∃ x ∈ runReports f r, k ≤ x := by
    intro h k hk
    have hpub := ack_published hk
    unfold published runSub at hpub
    cases hs : startHeight (startFrom f) r.sub with
    | none => rw [hs] at hpub; simp at hpub
    | some s =>
      rw [hs] at hpub
      simp only at hpub
      obtain ⟨n, hp, _, hbd, _⟩ := subLoop_spec W s r.sub.ticks (hreg s hs)
      -- the end marker of a block is only sent with the complete block
      have hpre := prefix_blocks_of_published hp
      obtain ⟨j, hj1, hj2, hj3⟩ := ends_prefix W (n + 1) s _ hpre
      have hkj := mem_ends_of_mem.mpr hpub
      rw [hj1] at hkj
      rw [List.mem_range'_1] at hkj
      by_cases hkn : k < s + n
      · obtain ⟨x, hx, hkx⟩ := hbd k hkj.1 hkn
        exact ⟨x, by unfold runReports; simp [hx], hkx⟩
      · -- block `s + n` complete: then the publisher failed in it, below a report
        have hkn' : k = s + n := by omega
        cases hres : (subLoop W s r.sub.ticks).2 with
        | some c =>
          obtain ⟨rest, hr1, _, hr3⟩ := hp.ex
          have := hr3 (by rw [hres]; rfl)
          subst this
          rw [hr1, List.append_nil] at hj1
          have hlen := congrArg List.length hj1
          obtain ⟨q, hq1, hq2, hq3⟩ := ends_prefix W n s (blocks W s n) List.prefix_rfl
          rw [hq1] at hlen
          simp at hlen
          omega
        | none =>
          rename_i hbd3
          rcases hbd3 hres with ⟨x, hx, hxk⟩ | heq
          · exact ⟨x, by unfold runReports; simp [hx], by omega⟩
          · rw [heq] at hj1
            have hlen := congrArg List.length hj1
            obtain ⟨q, hq1, hq2, hq3⟩ := ends_prefix W n s (blocks W s n) List.prefix_rfl
            rw [hq1] at hlen
            simp at hlen
            omega
  -- the greatest report so far is the new bound
  have hbound : ∃ B', B ≤ B' ∧ (∀ x ∈ runReports f r, x ≤ B') ∧
      ∀ x ∈ allReports W (fileAfter W f r) rs, B' ≤ x := by
    cases hl : (runReports f r).getLast? with
    | none =>
      rw [List.getLast?_eq_none_iff] at hl
      refine ⟨B, le_refl _, by rw [hl]; simp, fun x hx => hge x (by simp [hx])⟩
    | some y =>
      obtain ⟨ys, hys⟩ := List.getLast?_eq_some_iff.mp hl
      refine ⟨y, hge y (by rw [hys]; simp), ?_, fun x hx => hm3 y (by rw [hys]; simp) x hx⟩
      intro x hx
      rw [hys] at hx hm1
      rcases List.mem_append.mp hx with hx | hx
      · exact (List.pairwise_append.mp hm1).2.2 x hx y (by simp)
      · simp at hx; omega
  obtain ⟨B', hb1, hb2, hb3⟩ := hbound
  refine ⟨B', ?_, hb3⟩
  intro e he
  unfold fileAfter at he
  split at he
  · rcases recordHandlers_mem he with he | ⟨h, _, hk⟩
    · exact le_trans (hB e he) hb1
    · obtain ⟨x, hx, hkx⟩ := hack h e.2 hk
      exact le_trans hkx (hb2 x hx)
  · exact le_trans (hB e he) hb1

theorem durable_from (W : World R A) (l : Label) (rs : List Run) (f : StateFile) (B : Nat)
    (hB : ∀ e ∈ f, e.2 ≤ B) (hge : ∀ x ∈ allReports W f rs, B ≤ x) (hsane : Sane W l f rs) :
    (∃ first k, durableAcks W l f rs = List.range' first k ∧ ∀ c, f.get? l = some c → first = c + 1) ∧
    (rs.foldl (fileAfter W) f).get? l = ((durableAcks W l f rs).getLast?).or (f.get? l) := by
  induction rs generalizing f B with
  | nil =>
    refine ⟨?_, by simp [durableAcks]⟩
    cases hg : f.get? l with
    | none => exact ⟨0, 0, rfl, fun c hc => by simp at hc⟩
    | some c => exact ⟨c + 1, 0, rfl, fun c' hc => by simp at hc; omega⟩
  | cons r rs ih =>
    obtain ⟨hreg, B', hB', hge'⟩ := inv_step W f r rs B hB hge hsane.mono
    have hsane' : Sane W l (fileAfter W f r) rs :=
      ⟨hsane.labels.2, hsane.nolag.2, (List.pairwise_append.mp hsane.mono).2.1⟩
    obtain ⟨⟨first', k', hd', hf'⟩, hlast'⟩ := ih (fileAfter W f r) B' hB' hge' hsane'
    have hget := fileAfter_get W f r l hsane.labels.1
    -- the acknowledgements of this run
    have hrun : ∃ first k, (handlerOut W f r l).2 = List.range' first k ∧
        ∀ c, f.get? l = some c → first = c + 1 := by
      cases hs : startHeight (startFrom f) r.sub with
      | none =>
        have hnil : (handlerOut W f r l).2 = [] := by
          rw [List.eq_nil_iff_forall_not_mem]
          intro k hk
          unfold handlerOut at hk
          split at hk
          · simp at hk
          · have := ack_published hk
            unfold published runSub at this
            rw [hs] at this
            simp at this
        cases hg : f.get? l with
        | none => exact ⟨0, 0, hnil, fun c hc => by simp at hc⟩
        | some c => exact ⟨c + 1, 0, hnil, fun c' hc => by simp at hc; omega⟩
      | some s =>
        obtain ⟨k, N, h1, _, _⟩ := C67_run W f r l s _ hs (hreg s hs) hsane.nolag.1 rfl
        refine ⟨_, k, h1, ?_⟩
        intro c hc
        rw [hc]
    rw [durableAcks, List.foldl_cons, hlast', hget]
    by_cases hfl : r.flushed = true
    · simp only [hfl, if_true] at hget ⊢
      obtain ⟨first, k, h1, h2⟩ := hrun
      cases k with
      | zero =>
        rw [List.range'_zero] at h1
        rw [h1] at hget ⊢
        simp only [List.getLast?_nil, Option.none_or, List.nil_append] at hget ⊢
        refine ⟨⟨first', k', hd', ?_⟩, trivial⟩
        intro c hc
        exact hf' c (by rw [hget]; exact hc)
      | succ k =>
        have hlast : (handlerOut W f r l).2.getLast? = some (first + k) := by
          rw [h1, List.range'_concat, List.getLast?_concat]
          simp
        rw [hlast] at hget
        simp only [Option.some_or] at hget
        have := hf' _ hget
        subst this
        refine ⟨⟨first, (k + 1) + k', ?_, h2⟩, ?_⟩
        · rw [h1, hd', ← List.range'_append_1 (m := k + 1) (n := k')]; rfl
        · rw [List.getLast?_append, Option.or_assoc]
    · simp only [hfl, Bool.false_eq_true, if_false, List.nil_append] at hget ⊢
      refine ⟨⟨first', k', hd', ?_⟩, trivial⟩
      intro c hc
      exact hf' c (by rw [hget]; exact hc)

/-- Histories.  Over any sequence of runs of the daemon, started without a state file, with any failures of the
node, subscriptions, handlers and writes of the state and any shutdowns in between: if the node never
reports a lower height than before and subscriptions do not overflow while blocks of earlier runs are
skipped, then the blocks a handler has completed in runs that wrote the state are consecutive blocks,
each of them once; and the state file records the last of them. -/
theorem C67_contiguous_partial (W : World R A) (l : Label) (rs : List Run) (h : Sane W l [] rs) :
    (∃ first k, durableAcks W l [] rs = List.range' first k) ∧
    (fileAfterAll W rs).get? l = (durableAcks W l [] rs).getLast? := by
  obtain ⟨⟨first, k, h1, _⟩, h2⟩ := durable_from W l rs [] 0 (by simp) (fun _ _ => Nat.zero_le _) h
  refine ⟨⟨first, k, h1⟩, ?_⟩
  unfold fileAfterAll
  rw [h2]
  simp

theorem eachRun_append (W : World R A) (P : StateFile → Run → Prop) (f : StateFile) (rs rs' : List Run) :
    EachRun W P f (rs ++ rs') ↔ EachRun W P f rs ∧ EachRun W P (rs.foldl (fileAfter W) f) rs' := by
  induction rs generalizing f with
  | nil => simp [EachRun]
  | cons r rs ih => simp [EachRun, ih, and_assoc]

theorem allReports_append (W : World R A) (f : StateFile) (rs rs' : List Run) :
    allReports W f (rs ++ rs') = allReports W f rs ++ allReports W (rs.foldl (fileAfter W) f) rs' := by
  induction rs generalizing f with
  | nil => rfl
  | cons r rs ih => simp [allReports, ih]

theorem inv_run (W : World R A) (rs : List Run) (r : Run) (f : StateFile) (B : Nat)
    (hB : ∀ e ∈ f, e.2 ≤ B) (hge : ∀ x ∈ allReports W f (rs ++ [r]), B ≤ x)
    (hmono : (allReports W f (rs ++ [r])).Pairwise (· ≤ ·)) (s : Nat)
    (hs : startHeight (startFrom (rs.foldl (fileAfter W) f)) r.sub = some s) :
    NoRegress s r.sub.ticks := by
  induction rs generalizing f B with
  | nil => exact (inv_step W f r [] B hB hge hmono).1 s hs
  | cons r' rs ih =>
    obtain ⟨_, B', hB', hge'⟩ := inv_step W f r' (rs ++ [r]) B hB hge hmono
    exact ih _ B' hB' hge' (List.pairwise_append.mp hmono).2.1 hs

/-- After any such history, the next run gives the handler a beginning of the blocks that follow the last one
it completed in a run that wrote the state; none is left out, and nothing completed is repeated. -/
theorem C67_resume_partial (W : World R A) (l : Label) (rs : List Run) (r : Run) (c : Nat)
    (h : Sane W l [] (rs ++ [r])) (hc : (durableAcks W l [] rs).getLast? = some c) :
    ∃ k N, (handlerOut W (fileAfterAll W rs) r l).2 = List.range' (c + 1) k ∧
      blocks W (c + 1) k <+: (handlerOut W (fileAfterAll W rs) r l).1 ∧
      (handlerOut W (fileAfterAll W rs) r l).1 <+: blocks W (c + 1) N := by
  have h1 := (eachRun_append W _ [] rs [r]).mp h.labels
  have h2 := (eachRun_append W _ [] rs [r]).mp h.nolag
  have h3 := h.mono
  rw [allReports_append] at h3
  have hs1 : Sane W l [] rs := ⟨h1.1, h2.1, (List.pairwise_append.mp h3).1⟩
  have hrec := (C67_contiguous_partial W l rs hs1).2
  rw [hc] at hrec
  cases hs : startHeight (startFrom (fileAfterAll W rs)) r.sub with
  | none =>
    obtain ⟨m, hm, _⟩ := min_le_of_get hrec
    unfold startFrom at hs
    rw [hm] at hs
    simp [startHeight] at hs
  | some s =>
    have hreg := inv_run W rs r [] 0 (by simp) (fun _ _ => Nat.zero_le _) h.mono s hs
    have := C67_run W (fileAfterAll W rs) r l s (c + 1) hs hreg h2.2.1 (by rw [hrec])
    exact this

/-! ### Concrete cases -/

/-- a handler that is served everything -/
def served (n : Nat) (replies : List HandleReply) : HandlerIn := ⟨List.replicate n .deliver, replies⟩

def okReply : HandleReply := ⟨true, true, false⟩

/-- first run: handler 1 completes blocks 5 and 6, handler 2 fails after block 5 -/
def firstRun : Run where
  sub := ⟨some 5, [okTick 6]⟩
  handlers := [(1, served 20 (List.replicate 20 okReply)),
    (2, served 20 (List.replicate 8 okReply ++ [⟨false, true, false⟩]))]
  flushed := true

/-- second run: the process is killed -/
def killedRun : Run where
  sub := ⟨none, [okTick 7]⟩
  handlers := [(1, served 30 (List.replicate 30 okReply)), (2, served 30 (List.replicate 30 okReply))]
  flushed := false

/-- third run -/
def thirdRun : Run := { killedRun with flushed := true }

example : fileAfterAll demoWorld [firstRun, killedRun] = [(1, 6), (2, 5)] := by decide +kernel

example : durableAcks demoWorld 1 [] [firstRun, killedRun, thirdRun] = [5, 6, 7] ∧
    durableAcks demoWorld 2 [] [firstRun, killedRun, thirdRun] = [5, 6, 7] := by decide +kernel

instance (W : World R A) [DecidableEq A] (f : StateFile) (r : Run) (l : Label) :
    Decidable (NoLagWhileSkipping W f r l) := by
  unfold NoLagWhileSkipping; infer_instance

theorem demo_sane : Sane demoWorld 2 [] ([firstRun, killedRun] ++ [thirdRun]) := by
  refine ⟨⟨?_, ?_, ?_, trivial⟩, ⟨?_, ?_, ?_, trivial⟩, ?_⟩ <;> decide +kernel

/-- The state is only written at the end of a run: a block whose handling completed before the process is
killed is handled again by the next run (block 7 here, by both handlers). -/
theorem C67_counterexample_kill :
    ends (handlerOut demoWorld (fileAfterAll demoWorld [firstRun]) killedRun 1).1 = [7] ∧
    ends (handlerOut demoWorld (fileAfterAll demoWorld [firstRun, killedRun]) thirdRun 1).1 = [7] := by
  decide +kernel

/-- a run in which the subscription of handler 1 overflows while it skips block 6 -/
def laggingRun : Run where
  sub := ⟨none, [okTick 8]⟩
  handlers := [(1, ⟨List.replicate 2 .deliver ++ [.lag 10] ++ List.replicate 20 .deliver,
    List.replicate 30 okReply⟩), (2, served 30 (List.replicate 30 okReply))]
  flushed := true

/-- The hypothesis on overflows is needed: `skip_to_block` also skips the error that reports dropped events.
Here the overflow drops block 7 while handler 1 is skipping block 6: it goes on with block 8, and block
7 is never handled by it although the state file then says that it has completed block 8. -/
theorem C67_counterexample_lag :
    (fileAfterAll demoWorld [firstRun]).get? 1 = some 6 ∧
    (handlerOut demoWorld (fileAfterAll demoWorld [firstRun]) laggingRun 1).2 = [8] ∧
    (fileAfterAll demoWorld [firstRun, laggingRun]).get? 1 = some 8 := by
  decide +kernel

end Amp.Ampd
