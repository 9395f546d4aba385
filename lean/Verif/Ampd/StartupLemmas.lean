import Verif.Ampd.StartupSpec
import Verif.Ampd.SuperviseProps

/-!
# Lemmas for C108
-/

namespace Amp.Ampd

variable {A : Type}

theorem entry_put (m : List (Str × Conf A)) (k k' : Str) (v : Conf A) :
    entry (putEntry m k v) k' = if k' = k then some v else entry m k' := by
  unfold entry putEntry
  rw [List.find?_append]
  by_cases h : k' = k
  · subst h
    have : (m.filter (fun e => e.1 ≠ k')).find? (fun e => decide (e.1 = k')) = none := by
      rw [List.find?_eq_none]
      intro x hx
      simpa using (List.mem_filter.mp hx).2
    rw [this]
    simp
  · have : (m.filter (fun e => e.1 ≠ k)).find? (fun e => decide (e.1 = k')) = m.find? (fun e => decide (e.1 = k')) := by
      rw [List.find?_filter]
      congr 1
      funext e
      by_cases he : e.1 = k'
      · simp [he, h]
      · simp [he]
    rw [this]
    have : ([(k, v)] : List (Str × Conf A)).find? (fun e => decide (e.1 = k')) = none := by
      simp [List.find?, Ne.symm h]
    rw [this]
    simp [h]

theorem entry_cons (m : List (Str × Conf A)) (k k' : Str) (v : Conf A) :
    entry ((k, v) :: m) k' = if k' = k then some v else entry m k' := by
  unfold entry
  by_cases h : k' = k
  · simp [h]
  · simp [h, Ne.symm h]

theorem entry_none (m : List (Str × Conf A)) (k : Str) (h : k ∉ m.map Prod.fst) : entry m k = none := by
  unfold entry
  rw [Option.map_eq_none_iff, List.find?_eq_none]
  intro x hx
  simp only [decide_eq_true_eq]
  rintro rfl
  exact h (List.mem_map_of_mem hx)

theorem proper_entry {m : List (Str × Conf A)} (hm : ProperTable m) {k : Str} {v : Conf A} (h : entry m k = some v) :
    v.Proper := by
  induction m with
  | nil => simp [entry] at h
  | cons e t ih =>
    obtain ⟨k', v'⟩ := e
    rw [entry_cons] at h
    unfold ProperTable at hm
    split at h
    · simp only [Option.some.injEq] at h; subst h; exact hm.2.1
    · exact ih hm.2.2 h

/-- what a table has under a name after another one is laid over it -/
theorem entry_overlay (m t : List (Str × Conf A)) (ht : ProperTable t) (k : Str) :
    entry (overlay m t) k =
      match entry t k with
      | none => entry m k
      | some (.leaf a) => some (.leaf a)
      | some (.table t') => some (.table (overlay (subTable m k) t')) := by
  induction t generalizing m with
  | nil => simp [overlay, entry]
  | cons e t ih =>
    obtain ⟨k', v⟩ := e
    unfold ProperTable at ht
    obtain ⟨hk, _, ht⟩ := ht
    rw [overlay, ih (setEntry m k' v) ht, entry_cons]
    by_cases h : k = k'
    · subst h
      rw [entry_none t k hk, if_pos rfl]
      cases v with
      | leaf a => simp only [setEntry, entry_put, if_true]
      | table t' => simp only [setEntry, entry_put, if_true]
    · rw [if_neg h]
      have he : entry (setEntry m k' v) k = entry m k := by
        cases v with
        | leaf a => rw [setEntry, entry_put, if_neg h]
        | table t' => rw [setEntry, entry_put, if_neg h]
      have hs : subTable (setEntry m k' v) k = subTable m k := by unfold subTable; rw [he]
      rw [he, hs]

theorem under_nil (p : List Str) (h : p ≠ []) : under ([] : List (Str × Conf A)) p = none := by
  cases p with
  | nil => exact absurd rfl h
  | cons k p => simp [under, entry]

theorem under_says (m t : List (Str × Conf A)) (ht : ProperTable t) (p : List Str) (a : A)
    (h : under t p = some (.leaf a)) : under (overlay m t) p = some (.leaf a) := by
  induction p generalizing m t with
  | nil => simp [under] at h
  | cons k p ih =>
    unfold under at h ⊢
    rw [entry_overlay m t ht]
    cases hk : entry t k with
    | none => simp [hk] at h
    | some v =>
      cases v with
      | leaf b => simpa [hk] using h
      | table t' =>
        simp only [hk] at h ⊢
        exact ih (subTable m k) t' (by simpa [Conf.Proper] using proper_entry ht hk) h

theorem under_silent (m t : List (Str × Conf A)) (ht : ProperTable t) (p : List Str) (h : Silent t p) :
    under (overlay m t) p = under m p := by
  induction p generalizing m t with
  | nil => exact absurd h (by simp [Silent])
  | cons k p ih =>
    unfold Silent at h
    unfold under
    rw [entry_overlay m t ht]
    cases hk : entry t k with
    | none => rfl
    | some v =>
      cases v with
      | leaf b => simp [hk] at h
      | table t' =>
        simp only [hk] at h ⊢
        have hp : p ≠ [] := by rintro rfl; simp [Silent] at h
        rw [ih (subTable m k) t' (by simpa [Conf.Proper] using proper_entry ht hk) h]
        unfold subTable
        cases hm : entry m k with
        | none => simp [under_nil p hp]
        | some w =>
          cases w with
          | leaf b => simp [under_nil p hp, hp]
          | table m' => rfl

/-- tables laid over each other -/
theorem under_all (m : List (Str × Conf A)) (ts : List (List (Str × Conf A))) (hts : ∀ t ∈ ts, ProperTable t)
    (p : List Str) :
    (∀ a, LastWord ts p a → under (ts.foldl overlay m) p = some (.leaf a)) ∧
    (Unset ts p → under (ts.foldl overlay m) p = under m p) := by
  have silent : ∀ (ts : List (List (Str × Conf A))) (m), (∀ t ∈ ts, ProperTable t) → Unset ts p →
      under (ts.foldl overlay m) p = under m p := by
    intro ts
    induction ts with
    | nil => intro m _ _; rfl
    | cons t ts ih =>
      intro m hts hu
      rw [List.foldl_cons, ih _ (fun t ht => hts t (List.mem_cons_of_mem _ ht))
        (fun s hs => hu s (List.mem_cons_of_mem _ hs))]
      exact under_silent m t (hts t (List.mem_cons_self ..)) p (hu t (List.mem_cons_self ..))
  refine ⟨?_, silent ts m hts⟩
  rintro a ⟨s₁, t, s₂, rfl, ht, hs⟩
  rw [List.foldl_append, List.foldl_cons, silent s₂ _ (fun t ht => hts t (by simp [ht])) hs]
  exact under_says _ t (hts t (by simp)) p a ht

theorem overlayFiles_some (fs : List (ConfFile A)) (m r : List (Str × Conf A)) (h : overlayFiles m fs = some r) :
    .broken ∉ fs ∧
    r = (fs.filterMap (fun f => match f with | .parsed t => some t | .broken => none)).foldl overlay m := by
  induction fs generalizing m with
  | nil => simp [overlayFiles] at h; simp [h]
  | cons f fs ih =>
    cases f with
    | broken => simp [overlayFiles] at h
    | parsed t =>
      simp only [overlayFiles] at h
      obtain ⟨h1, h2⟩ := ih _ h
      simp only [List.mem_cons, reduceCtorEq, false_or, h1, not_false_eq_true, true_and]
      rw [h2]
      rfl

theorem overlayFiles_none (fs : List (ConfFile A)) (m : List (Str × Conf A)) (h : .broken ∈ fs) :
    overlayFiles m fs = none := by
  induction fs generalizing m with
  | nil => simp at h
  | cons f fs ih =>
    cases f with
    | broken => rfl
    | parsed t => exact ih _ (by simpa using h)

theorem overlayFiles_isSome (fs : List (ConfFile A)) (m : List (Str × Conf A)) (h : .broken ∉ fs) :
    ∃ r, overlayFiles m fs = some r := by
  induction fs generalizing m with
  | nil => exact ⟨m, rfl⟩
  | cons f fs ih =>
    cases f with
    | broken => simp at h
    | parsed t => exact ih _ (by simpa using h)

theorem gather_some {R : Leaves A} {M : Machine A} {paths : List FilePath} {m : List (Str × Conf A)}
    (h : gather R M paths = some m) : .broken ∉ findFiles M paths ∧ m = (sources R M paths).foldl overlay [] := by
  unfold gather at h
  obtain ⟨r, h1, rfl⟩ := Option.map_eq_some_iff.mp h
  obtain ⟨h2, rfl⟩ := overlayFiles_some _ _ _ h1
  refine ⟨h2, ?_⟩
  unfold sources
  rw [List.foldl_append]
  rfl

theorem readConfig_some {R : Leaves A} {nobody : Addr} {m : List (Str × Conf A)} {c : AmpdCfg}
    (h : readConfig R nobody m = some c) :
    orElse m "tm_jsonrpc".toList R.url (AmpdCfg.default nobody).tmJsonrpc = some c.tmJsonrpc ∧
    orElse m "tm_grpc".toList R.url (AmpdCfg.default nobody).tmGrpc = some c.tmGrpc ∧
    orElse m "event_buffer_cap".toList R.count (AmpdCfg.default nobody).eventBufferCap = some c.eventBufferCap ∧
    sectionOrElse m "broadcast".toList (readBroadcast R) (AmpdCfg.default nobody).broadcast = some c.broadcast ∧
    orElse m "handlers".toList (readHandlers R) (AmpdCfg.default nobody).handlers = some c.handlers ∧
    sectionOrElse m "tofnd_config".toList (readTofnd R) (AmpdCfg.default nobody).tofnd = some c.tofnd ∧
    sectionOrElse m "service_registry".toList (readRegistry R) (AmpdCfg.default nobody).serviceRegistry =
      some c.serviceRegistry := by
  unfold readConfig at h
  simp only [Option.pure_def, Option.bind_eq_bind, Option.bind_eq_some_iff, Option.some.injEq] at h
  obtain ⟨x1, h1, x2, h2, x3, h3, x4, h4, x5, h5, x6, h6, x7, h7, rfl⟩ := h
  exact ⟨h1, h2, h3, h4, h5, h6, h7⟩


/-- where a value in the end result comes from -/
theorem under_leaf (m t : List (Str × Conf A)) (ht : ProperTable t) (p : List Str) (a : A)
    (h : under (overlay m t) p = some (.leaf a)) :
    under t p = some (.leaf a) ∨ (Silent t p ∧ under m p = some (.leaf a)) := by
  induction p generalizing m t with
  | nil => simp [under] at h
  | cons k p ih =>
    unfold under at h
    rw [entry_overlay m t ht] at h
    unfold Silent under
    cases hk : entry t k with
    | none => simp only [hk] at h; exact Or.inr ⟨trivial, h⟩
    | some v =>
      cases v with
      | leaf b => simp only [hk] at h; exact Or.inl h
      | table t' =>
        simp only [hk] at h ⊢
        rcases ih (subTable m k) t' (by simpa [Conf.Proper] using proper_entry ht hk) h with h1 | ⟨h1, h2⟩
        · exact Or.inl h1
        · refine Or.inr ⟨h1, ?_⟩
          have hp : p ≠ [] := by rintro rfl; simp [Silent] at h1
          unfold subTable at h2
          cases hm : entry m k with
          | none => simp [hm, under_nil p hp] at h2
          | some w =>
            cases w with
            | leaf b => simp [hm, under_nil p hp] at h2
            | table m' => simpa [hm] using h2

theorem last_word (ts : List (List (Str × Conf A))) (hts : ∀ t ∈ ts, ProperTable t) (p : List Str) (a : A)
    (h : under (ts.foldl overlay []) p = some (.leaf a)) : LastWord ts p a := by
  have hp : p ≠ [] := by rintro rfl; simp [under] at h
  induction ts using List.reverseRecOn with
  | nil => simp [under_nil p hp] at h
  | append_singleton ts t ih =>
    rw [List.foldl_append, List.foldl_cons, List.foldl_nil] at h
    rcases under_leaf _ t (hts t (by simp)) p a h with h1 | ⟨h1, h2⟩
    · exact ⟨ts, t, [], by simp, h1, by simp⟩
    · obtain ⟨s₁, u, s₂, rfl, h3, h4⟩ := ih (fun t ht => hts t (by simp [ht])) h2
      refine ⟨s₁, u, s₂ ++ [t], by simp, h3, ?_⟩
      intro s hs
      rcases List.mem_append.mp hs with hs | hs
      · exact h4 s hs
      · rw [List.mem_singleton.mp hs]; exact h1

theorem unset_name (ts : List (List (Str × Conf A))) (hts : ∀ t ∈ ts, ProperTable t) (k : Str)
    (h : entry (ts.foldl overlay []) k = none) : Unset ts [k] := by
  induction ts using List.reverseRecOn with
  | nil => intro s hs; simp at hs
  | append_singleton ts t ih =>
    rw [List.foldl_append, List.foldl_cons, List.foldl_nil, entry_overlay _ t (hts t (by simp))] at h
    cases hk : entry t k with
    | none =>
      simp only [hk] at h
      intro s hs
      rcases List.mem_append.mp hs with hs | hs
      · exact ih (fun t ht => hts t (by simp [ht])) h s hs
      · rw [List.mem_singleton.mp hs]; simp [Silent, hk]
    | some v => cases v <;> simp [hk] at h

theorem orElse_some {X : Type} {ts : List (List (Str × Conf A))} (hts : ∀ t ∈ ts, ProperTable t) {k : Str}
    {read : A → Option X} {d x : X} (h : orElse (ts.foldl overlay []) k read d = some x) :
    (∃ a, LastWord ts [k] a ∧ read a = some x) ∨ (Unset ts [k] ∧ x = d) := by
  unfold orElse at h
  cases hk : entry (ts.foldl overlay []) k with
  | none => simp only [hk, Option.some.injEq] at h; exact Or.inr ⟨unset_name ts hts k hk, h.symm⟩
  | some v =>
    cases v with
    | leaf a =>
      simp only [hk] at h
      exact Or.inl ⟨a, last_word ts hts [k] a (by simp [under, hk]), h⟩
    | table t => simp [hk] at h

theorem sectionOrElse_some {X : Type} {ts : List (List (Str × Conf A))} (hts : ∀ t ∈ ts, ProperTable t) {k : Str}
    {read : List (Str × Conf A) → Option X} {d x : X} (h : sectionOrElse (ts.foldl overlay []) k read d = some x) :
    (∃ t, read t = some x ∧ ∀ k' a, entry t k' = some (.leaf a) → LastWord ts [k, k'] a) ∨ (Unset ts [k] ∧ x = d) := by
  unfold sectionOrElse at h
  cases hk : entry (ts.foldl overlay []) k with
  | none => simp only [hk, Option.some.injEq] at h; exact Or.inr ⟨unset_name ts hts k hk, h.symm⟩
  | some v =>
    cases v with
    | leaf a => simp [hk] at h
    | table t =>
      simp only [hk] at h
      exact Or.inl ⟨t, h, fun k' a ha => last_word ts hts [k, k'] a (by simp [under, hk, ha])⟩

theorem needed_some {X : Type} {t : List (Str × Conf A)} {k : Str} {read : A → Option X} {x : X}
    (h : needed t k read = some x) : ∃ a, entry t k = some (.leaf a) ∧ read a = some x := by
  unfold needed at h
  split at h
  · rename_i a ha; exact ⟨a, ha, h⟩
  · simp at h

theorem readBroadcast_some {R : Leaves A} {m : List (Str × Conf A)} {b : BroadcastSection}
    (h : readBroadcast R m = some b) :
    needed m "chain_id".toList R.chainId = some b.chainId ∧
    needed m "tx_fetch_interval".toList R.duration = some b.txFetchInterval ∧
    needed m "tx_fetch_max_retries".toList R.count = some b.txFetchMaxRetries ∧
    needed m "gas_adjustment".toList R.number = some b.gasAdjustment ∧
    needed m "gas_price".toList R.price = some b.gasPrice ∧
    needed m "batch_gas_limit".toList R.count = some b.batchGasLimit ∧
    needed m "queue_cap".toList R.count = some b.queueCap ∧
    needed m "broadcast_interval".toList R.duration = some b.broadcastInterval := by
  unfold readBroadcast at h
  simp only [Option.pure_def, Option.bind_eq_bind, Option.bind_eq_some_iff, Option.some.injEq] at h
  obtain ⟨x1, h1, x2, h2, x3, h3, x4, h4, x5, h5, x6, h6, x7, h7, x8, h8, rfl⟩ := h
  exact ⟨h1, h2, h3, h4, h5, h6, h7, h8⟩

theorem readTofnd_some {R : Leaves A} {m : List (Str × Conf A)} {b : TofndSection} (h : readTofnd R m = some b) :
    needed m "url".toList R.url = some b.url ∧ needed m "party_uid".toList R.text = some b.partyUid ∧
    needed m "key_uid".toList R.text = some b.keyUid := by
  unfold readTofnd at h
  simp only [Option.pure_def, Option.bind_eq_bind, Option.bind_eq_some_iff, Option.some.injEq] at h
  obtain ⟨x1, h1, x2, h2, x3, h3, rfl⟩ := h
  exact ⟨h1, h2, h3⟩

theorem readHandlers_some {R : Leaves A} {a : A} {hs : List HandlerCfg} (h : readHandlers R a = some hs) :
    R.handlers a = some hs ∧ validate hs = .ok () := by
  unfold readHandlers at h
  simp only [Option.bind_eq_bind, Option.bind_eq_some_iff] at h
  obtain ⟨hs', h1, h2⟩ := h
  split at h2
  · rename_i hv
    simp only [Option.some.injEq] at h2
    subst h2
    exact ⟨h1, hv⟩
  · simp at h2

/-- the last word is unique -/
theorem lastWord_unique {ts : List (List (Str × Conf A))} (hts : ∀ t ∈ ts, ProperTable t) {p : List Str} {a b : A}
    (h1 : LastWord ts p a) (h2 : LastWord ts p b) : a = b := by
  have := (under_all [] ts hts p).1 a h1
  rw [(under_all [] ts hts p).1 b h2] at this
  simpa using this.symm

theorem unset_entry {ts : List (List (Str × Conf A))} (hts : ∀ t ∈ ts, ProperTable t) {k : Str} (h : Unset ts [k]) :
    entry (ts.foldl overlay []) k = none := by
  have := (under_all [] ts hts [k]).2 h
  rw [under_nil [k] (by simp)] at this
  unfold under at this
  cases he : entry (ts.foldl overlay []) k with
  | none => rfl
  | some v => cases v <;> simp [he, under] at this

theorem orElse_none {X : Type} {ts : List (List (Str × Conf A))} (hts : ∀ t ∈ ts, ProperTable t) {k : Str}
    {read : A → Option X} {d : X} (h : orElse (ts.foldl overlay []) k read d = none) :
    (∃ a, LastWord ts [k] a ∧ read a = none) ∨ (¬ Unset ts [k] ∧ ∀ a, ¬ LastWord ts [k] a) := by
  unfold orElse at h
  cases hk : entry (ts.foldl overlay []) k with
  | none => simp [hk] at h
  | some v =>
    cases v with
    | leaf a =>
      simp only [hk] at h
      exact Or.inl ⟨a, last_word ts hts [k] a (by simp [under, hk]), h⟩
    | table t =>
      refine Or.inr ⟨fun hu => by rw [unset_entry hts hu] at hk; simp at hk, fun a ha => ?_⟩
      have := (under_all [] ts hts [k]).1 a ha
      simp [under, hk] at this

theorem sectionOrElse_none {X : Type} {ts : List (List (Str × Conf A))} (hts : ∀ t ∈ ts, ProperTable t) {k : Str}
    {read : List (Str × Conf A) → Option X} {d : X} (h : sectionOrElse (ts.foldl overlay []) k read d = none) :
    (∃ t, entry (ts.foldl overlay []) k = some (.table t) ∧ read t = none) ∨
      (¬ Unset ts [k] ∧ ∀ k' a, ¬ LastWord ts [k, k'] a) := by
  unfold sectionOrElse at h
  cases hk : entry (ts.foldl overlay []) k with
  | none => simp [hk] at h
  | some v =>
    cases v with
    | leaf a =>
      refine Or.inr ⟨fun hu => by rw [unset_entry hts hu] at hk; simp at hk, fun k' a ha => ?_⟩
      have := (under_all [] ts hts [k, k']).1 a ha
      simp [under, hk] at this
    | table t =>
      simp only [hk] at h
      exact Or.inl ⟨t, rfl, h⟩

theorem needed_none {X : Type} {ts : List (List (Str × Conf A))} (hts : ∀ t ∈ ts, ProperTable t) {k k' : Str}
    {t : List (Str × Conf A)} (ht : entry (ts.foldl overlay []) k = some (.table t)) {read : A → Option X}
    (h : needed t k' read = none) :
    (∃ a, LastWord ts [k, k'] a ∧ read a = none) ∨ (¬ Unset ts [k] ∧ ∀ a, ¬ LastWord ts [k, k'] a) := by
  have hu : ¬ Unset ts [k] := fun hu => by rw [unset_entry hts hu] at ht; simp at ht
  unfold needed at h
  split at h
  · rename_i a ha
    exact Or.inl ⟨a, last_word ts hts [k, k'] a (by simp [under, ht, ha]), h⟩
  · rename_i hn
    refine Or.inr ⟨hu, fun a ha => ?_⟩
    have := (under_all [] ts hts [k, k']).1 a ha
    simp only [under, ht] at this
    split at this
    · simp at this
    · rename_i b hb; exact hn b hb
    · simp at this

theorem readBroadcast_none {R : Leaves A} {m : List (Str × Conf A)} (h : readBroadcast R m = none) :
    needed m "chain_id".toList R.chainId = none ∨ needed m "tx_fetch_interval".toList R.duration = none ∨
    needed m "tx_fetch_max_retries".toList R.count = none ∨ needed m "gas_adjustment".toList R.number = none ∨
    needed m "gas_price".toList R.price = none ∨ needed m "batch_gas_limit".toList R.count = none ∨
    needed m "queue_cap".toList R.count = none ∨ needed m "broadcast_interval".toList R.duration = none := by
  by_contra hx
  simp only [not_or, ← ne_eq, Option.ne_none_iff_exists'] at hx
  obtain ⟨⟨x1, h1⟩, ⟨x2, h2⟩, ⟨x3, h3⟩, ⟨x4, h4⟩, ⟨x5, h5⟩, ⟨x6, h6⟩, ⟨x7, h7⟩, ⟨x8, h8⟩⟩ := hx
  unfold readBroadcast at h
  rw [h1, h2, h3, h4, h5, h6, h7, h8] at h
  simp at h

theorem readTofnd_none {R : Leaves A} {m : List (Str × Conf A)} (h : readTofnd R m = none) :
    needed m "url".toList R.url = none ∨ needed m "party_uid".toList R.text = none ∨
    needed m "key_uid".toList R.text = none := by
  by_contra hx
  simp only [not_or, ← ne_eq, Option.ne_none_iff_exists'] at hx
  obtain ⟨⟨x1, h1⟩, ⟨x2, h2⟩, ⟨x3, h3⟩⟩ := hx
  unfold readTofnd at h
  rw [h1, h2, h3] at h
  simp at h

theorem readConfig_none {R : Leaves A} {nobody : Addr} {m : List (Str × Conf A)} (h : readConfig R nobody m = none) :
    orElse m "tm_jsonrpc".toList R.url (AmpdCfg.default nobody).tmJsonrpc = none ∨
    orElse m "tm_grpc".toList R.url (AmpdCfg.default nobody).tmGrpc = none ∨
    orElse m "event_buffer_cap".toList R.count (AmpdCfg.default nobody).eventBufferCap = none ∨
    sectionOrElse m "broadcast".toList (readBroadcast R) (AmpdCfg.default nobody).broadcast = none ∨
    orElse m "handlers".toList (readHandlers R) (AmpdCfg.default nobody).handlers = none ∨
    sectionOrElse m "tofnd_config".toList (readTofnd R) (AmpdCfg.default nobody).tofnd = none ∨
    sectionOrElse m "service_registry".toList (readRegistry R) (AmpdCfg.default nobody).serviceRegistry = none := by
  by_contra hx
  simp only [not_or, ← ne_eq, Option.ne_none_iff_exists'] at hx
  obtain ⟨⟨x1, h1⟩, ⟨x2, h2⟩, ⟨x3, h3⟩, ⟨x4, h4⟩, ⟨x5, h5⟩, ⟨x6, h6⟩, ⟨x7, h7⟩⟩ := hx
  unfold readConfig at h
  dsimp only at h
  rw [h1, h2, h3, h4, h5, h6, h7] at h
  simp at h

theorem readHandlers_none {R : Leaves A} {a : A} (h : readHandlers R a = none) :
    R.handlers a = none ∨ ∃ hs, R.handlers a = some hs ∧ validate hs ≠ .ok () := by
  unfold readHandlers at h
  cases hr : R.handlers a with
  | none => exact Or.inl rfl
  | some hs =>
    refine Or.inr ⟨hs, rfl, fun hv => ?_⟩
    simp [hr, hv] at h

theorem step_ended {s s' : Tasks} {a : Action} (h : s.step a = some s') {t : Job} {e : End} (he : s'.ended t = some e) :
    s.ended t = some e ∨ a = .ends t e := by
  cases a with
  | signal =>
    unfold Tasks.step at h
    dsimp only at h
    split at h
    · simp at h
    · simp only [Option.some.injEq] at h; subst h; exact Or.inl he
  | handlerEnds i e' =>
    unfold Tasks.step at h
    dsimp only at h
    split at h
    · simp only [Option.some.injEq] at h; subst h; exact Or.inl he
    · simp at h
  | ends t' e' =>
    unfold Tasks.step at h
    dsimp only at h
    split at h
    · simp only [Option.some.injEq] at h
      subst h
      dsimp only at he
      split at he
      · rename_i ht
        simp only [Option.some.injEq] at he
        rw [ht, he]
        exact Or.inr rfl
      · exact Or.inl he
    · simp at h
  | join t' =>
    unfold Tasks.step at h
    dsimp only at h
    split at h
    · split at h
      · split at h
        · simp only [Option.some.injEq] at h; subst h; exact Or.inl he
        · simp only [Option.some.injEq] at h; subst h; exact Or.inl he
      · simp only [Option.some.injEq] at h; subst h; exact Or.inl he
      · simp at h
    · simp at h
  | exit =>
    unfold Tasks.step at h
    dsimp only at h
    split at h
    · split at h
      · simp only [Option.some.injEq] at h; subst h; exact Or.inl he
      · simp at h
    · simp at h

theorem run_ended {s s' : Tasks} {as : List Action} (h : s.run as = some s') {t : Job} {e : End}
    (he : s'.ended t = some e) : s.ended t = some e ∨ .ends t e ∈ as := by
  induction as generalizing s with
  | nil => simp only [Tasks.run, Option.some.injEq] at h; subst h; exact Or.inl he
  | cons a as ih =>
    simp only [Tasks.run] at h
    split at h
    · simp at h
    · rename_i s1 h1
      rcases ih h with h2 | h2
      · rcases step_ended h1 h2 with h3 | h3
        · exact Or.inl h3
        · subst h3; exact Or.inr (List.mem_cons_self ..)
      · exact Or.inr (List.mem_cons_of_mem _ h2)

end Amp.Ampd
