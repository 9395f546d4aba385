import Verif.Ampd.StartupLemmas
import Verif.Ampd.CommandsProps

/-!
# C108: the configuration that is in use, and how the daemon starts
-/

namespace Amp.Ampd

open Amp.Encoding (Bytes)

variable {A : Type}

theorem default_handlers (nobody : Addr) : (AmpdCfg.default nobody).handlers = [] := rfl

theorem default_keyUid (nobody : Addr) : (AmpdCfg.default nobody).daemon.keyUid = "axelar".toList := rfl

/-- C108: if the daemon accepts what it is configured with, it uses for every setting the value of the last source that
says something about it: the files in the order in which they are given, then the environment.  The default is used only
if no source mentions the setting or, for those in sections, the section.  In particular the handlers are those of the
last file that lists any; no two of them are the same.

Missing: what happens if it does not accept it (`C108_refused`). -/
theorem C108_in_use_partial (R : Leaves A) (nobody : Addr) (M : Machine A) (paths : List FilePath)
    (hp : ProperSources R M paths) (c : AmpdCfg) (h : parseConfig R nobody M paths = some c) :
    initConfig R nobody M paths = c ∧
    (∀ s : Setting, (∃ a, LastWord (sources R M paths) s.path a ∧ s.Gives R c a) ∨
      (Unset (sources R M paths) (s.path.take 1) ∧ s.Same c (.default nobody))) ∧
    c.handlers.Pairwise (fun x y => ¬ SameHandler x y) ∧ .broken ∉ findFiles M paths := by
  refine ⟨by unfold initConfig; rw [h]; rfl, ?_⟩
  unfold parseConfig at h
  obtain ⟨m, hg, hr⟩ := Option.bind_eq_some_iff.mp h
  obtain ⟨hb, rfl⟩ := gather_some hg
  obtain ⟨h1, h2, h3, h4, h5, h6, h7⟩ := readConfig_some hr
  have k1 := orElse_some hp h1
  have k2 := orElse_some hp h2
  have k3 := orElse_some hp h3
  have k4 := sectionOrElse_some hp h4
  have k5 := orElse_some hp h5
  have k6 := sectionOrElse_some hp h6
  have k7 := sectionOrElse_some hp h7
  refine ⟨?_, ?_, hb⟩
  · have sec : ∀ {X Y : Type} {d x : X} {read : List (Str × Conf A) → Option X} {k k' : Str} {f : A → Option Y}
        {y : X → Y},
        ((∃ t, read t = some x ∧ ∀ k' a, entry t k' = some (.leaf a) → LastWord (sources R M paths) [k, k'] a) ∨
          (Unset (sources R M paths) [k] ∧ x = d)) →
        (∀ t, read t = some x → needed t k' f = some (y x)) →
        (∃ a, LastWord (sources R M paths) [k, k'] a ∧ f a = some (y x)) ∨
          (Unset (sources R M paths) [k] ∧ y x = y d) := by
      rintro X Y d x read k k' f y (⟨t, ht, hl⟩ | ⟨hu, rfl⟩) hn
      · obtain ⟨a, ha, hx⟩ := needed_some (hn t ht)
        exact Or.inl ⟨a, hl _ _ ha, hx⟩
      · exact Or.inr ⟨hu, rfl⟩
    intro s
    cases s with
    | tmJsonrpc => exact k1
    | tmGrpc => exact k2
    | eventBufferCap => exact k3
    | handlers =>
      rcases k5 with ⟨a, ha, hx⟩ | k5
      · exact Or.inl ⟨a, ha, (readHandlers_some hx).1⟩
      · exact Or.inr k5
    | chainId => exact sec (y := BroadcastSection.chainId) k4 (fun t ht => (readBroadcast_some ht).1)
    | txFetchInterval => exact sec (y := BroadcastSection.txFetchInterval) k4 (fun t ht => (readBroadcast_some ht).2.1)
    | txFetchMaxRetries =>
      exact sec (y := BroadcastSection.txFetchMaxRetries) k4 (fun t ht => (readBroadcast_some ht).2.2.1)
    | gasAdjustment => exact sec (y := BroadcastSection.gasAdjustment) k4 (fun t ht => (readBroadcast_some ht).2.2.2.1)
    | gasPrice => exact sec (y := BroadcastSection.gasPrice) k4 (fun t ht => (readBroadcast_some ht).2.2.2.2.1)
    | batchGasLimit =>
      exact sec (y := BroadcastSection.batchGasLimit) k4 (fun t ht => (readBroadcast_some ht).2.2.2.2.2.1)
    | queueCap => exact sec (y := BroadcastSection.queueCap) k4 (fun t ht => (readBroadcast_some ht).2.2.2.2.2.2.1)
    | broadcastInterval =>
      exact sec (y := BroadcastSection.broadcastInterval) k4 (fun t ht => (readBroadcast_some ht).2.2.2.2.2.2.2)
    | tofndUrl => exact sec (y := TofndSection.url) k6 (fun t ht => (readTofnd_some ht).1)
    | partyUid => exact sec (y := TofndSection.partyUid) k6 (fun t ht => (readTofnd_some ht).2.1)
    | keyUid => exact sec (y := TofndSection.keyUid) k6 (fun t ht => (readTofnd_some ht).2.2)
    | serviceRegistry => exact sec (y := id) k7 (fun t ht => ht)
  · rcases k5 with ⟨a, ha, hx⟩ | ⟨_, hx⟩
    · exact (C87_accepts _).mp (readHandlers_some hx).2
    · rw [hx]; exact List.Pairwise.nil

/-- C108: the daemon refuses what it is configured with iff something is wrong with it in one of these ways: a file that
exists cannot be parsed, a value in effect cannot be read, two entries ask for the same handler, or a section is given
but not completely. -/
theorem C108_refused (R : Leaves A) (nobody : Addr) (M : Machine A) (paths : List FilePath)
    (hp : ProperSources R M paths) : parseConfig R nobody M paths = none ↔ Mistaken R M paths := by
  constructor
  · intro h
    unfold parseConfig at h
    by_cases hb : .broken ∈ findFiles M paths
    · exact Or.inl hb
    refine Or.inr ?_
    obtain ⟨r, hr⟩ := overlayFiles_isSome (findFiles M paths) [] hb
    have hg : gather R M paths = some (overlay r (envTable R M.env)) := by unfold gather; rw [hr]; rfl
    rw [hg, Option.bind_some, (gather_some hg).2] at h
    have bad : ∀ {X : Type} {s : Setting} {f : A → Option X},
        ((∃ a, LastWord (sources R M paths) s.path a ∧ f a = none) ∨
          (¬ Unset (sources R M paths) (s.path.take 1) ∧ ∀ a, ¬ LastWord (sources R M paths) s.path a)) →
        (∀ a, f a = none → ∀ c, ¬ s.Gives R c a) →
        ((∃ s a, LastWord (sources R M paths) (Setting.path s) a ∧ ∀ c, ¬ s.Gives R c a) ∨
        (∃ a hs, LastWord (sources R M paths) (Setting.path .handlers) a ∧ R.handlers a = some hs ∧
          ¬ hs.Pairwise (fun x y => ¬ SameHandler x y)) ∨
        (∃ s, ¬ Unset (sources R M paths) ((Setting.path s).take 1) ∧
          ∀ a, ¬ LastWord (sources R M paths) (Setting.path s) a)) := by
      rintro X s f (⟨a, h1, h2⟩ | h1) hf
      · exact Or.inl ⟨s, a, h1, hf a h2⟩
      · exact Or.inr (Or.inr ⟨s, h1⟩)
    have no : ∀ {X : Type} {o : Option X} {x : X}, o = none → ¬ o = some x := by
      rintro X o x rfl hx; cases hx
    rcases readConfig_none h with h | h | h | h | h | h | h
    · exact bad (s := .tmJsonrpc) (orElse_none hp h) (fun a ha c => no ha)
    · exact bad (s := .tmGrpc) (orElse_none hp h) (fun a ha c => no ha)
    · exact bad (s := .eventBufferCap) (orElse_none hp h) (fun a ha c => no ha)
    · rcases sectionOrElse_none hp h with ⟨t, ht, hr⟩ | ⟨h1, h2⟩
      · rcases readBroadcast_none hr with hr | hr | hr | hr | hr | hr | hr | hr
        · exact bad (s := .chainId) (needed_none hp ht hr) (fun a ha c => no ha)
        · exact bad (s := .txFetchInterval) (needed_none hp ht hr) (fun a ha c => no ha)
        · exact bad (s := .txFetchMaxRetries) (needed_none hp ht hr) (fun a ha c => no ha)
        · exact bad (s := .gasAdjustment) (needed_none hp ht hr) (fun a ha c => no ha)
        · exact bad (s := .gasPrice) (needed_none hp ht hr) (fun a ha c => no ha)
        · exact bad (s := .batchGasLimit) (needed_none hp ht hr) (fun a ha c => no ha)
        · exact bad (s := .queueCap) (needed_none hp ht hr) (fun a ha c => no ha)
        · exact bad (s := .broadcastInterval) (needed_none hp ht hr) (fun a ha c => no ha)
      · exact Or.inr (Or.inr ⟨.chainId, h1, h2 _⟩)
    · rcases orElse_none hp h with ⟨a, h1, h2⟩ | h1
      · rcases readHandlers_none h2 with h3 | ⟨hs, h3, h4⟩
        · exact Or.inl ⟨.handlers, a, h1, fun c => no h3⟩
        · exact Or.inr (Or.inl ⟨a, hs, h1, h3, fun hx => h4 ((C87_accepts hs).mpr hx)⟩)
      · exact Or.inr (Or.inr ⟨.handlers, h1⟩)
    · rcases sectionOrElse_none hp h with ⟨t, ht, hr⟩ | ⟨h1, h2⟩
      · rcases readTofnd_none hr with hr | hr | hr
        · exact bad (s := .tofndUrl) (needed_none hp ht hr) (fun a ha c => no ha)
        · exact bad (s := .partyUid) (needed_none hp ht hr) (fun a ha c => no ha)
        · exact bad (s := .keyUid) (needed_none hp ht hr) (fun a ha c => no ha)
      · exact Or.inr (Or.inr ⟨.keyUid, h1, h2 _⟩)
    · rcases sectionOrElse_none hp h with ⟨t, ht, hr⟩ | ⟨h1, h2⟩
      · exact bad (s := .serviceRegistry) (needed_none hp ht hr) (fun a ha c => no ha)
      · exact Or.inr (Or.inr ⟨.serviceRegistry, h1, h2 _⟩)
  · intro hm
    cases h : parseConfig R nobody M paths with
    | none => rfl
    | some c =>
      exfalso
      obtain ⟨_, hs, hpw, hb⟩ := C108_in_use_partial R nobody M paths hp c h
      have unset : ∀ {s : Setting} {a : A}, LastWord (sources R M paths) s.path a →
          ¬ Unset (sources R M paths) (s.path.take 1) := by
        intro s a ha hu
        have h1 := (under_all [] _ hp s.path).1 a ha
        obtain ⟨k, p, hk⟩ : ∃ k p, s.path = k :: p := by cases s <;> exact ⟨_, _, rfl⟩
        rw [hk] at h1 hu
        have := unset_entry hp (k := k) (by simpa using hu)
        simp [under, this] at h1
      rcases hm with hm | ⟨s, a, h1, h2⟩ | ⟨a, hs', h1, h2, h3⟩ | ⟨s, h1, h2⟩
      · exact hb hm
      · rcases hs s with ⟨b, h3, h4⟩ | ⟨h3, _⟩
        · rw [lastWord_unique hp h1 h3] at h2
          exact h2 c h4
        · exact unset h1 h3
      · rcases hs .handlers with ⟨b, h4, h5⟩ | ⟨h4, _⟩
        · rw [← lastWord_unique hp h1 h4] at h5
          unfold Setting.Gives at h5
          rw [h2] at h5
          simp only [Option.some.injEq] at h5
          subst h5
          exact h3 hpw
        · exact unset h1 h4
      · rcases hs s with ⟨b, h3, _⟩ | ⟨h3, _⟩
        · exact h2 b h3
        · exact h1 h3

/-- C108: which files are looked for: those at the given paths, in this order, where `~` stands for the home directory at
the beginning of a path, and only there.  Files that do not exist are left out. -/
theorem C108_paths (M : Machine A) (home : FilePath) (hh : M.home = some home) :
    (∀ ps qs, findFiles M (ps ++ qs) = findFiles M ps ++ findFiles M qs) ∧
    (∀ rest, findFiles M [⟨false, "~".toList :: rest⟩] = (M.file ⟨home.absolute, home.parts ++ rest⟩).toList) ∧
    ∀ p : FilePath, (p.absolute = true ∨ p.parts.head? ≠ some "~".toList) → findFiles M [p] = (M.file p).toList := by
  have one : ∀ p, findFiles M [p] = (M.file (expandHome M.home p)).toList := by
    intro p
    unfold findFiles
    cases h : M.file (expandHome M.home p) <;> simp [h]
  refine ⟨fun ps qs => by unfold findFiles; rw [List.filterMap_append], ?_, ?_⟩
  · intro rest
    rw [one, hh]
    rfl
  · rintro ⟨b, ps⟩ hp
    rw [one]
    congr 2
    cases b with
    | true => rfl
    | false =>
      cases ps with
      | nil => rfl
      | cons c rest =>
        have hc : c ≠ "~".toList := by
          rintro rfl
          simp at hp
        simp only [expandHome, if_neg hc]

/-- C108, negation: a daemon that refuses its configuration does not stop, but goes on with the default one.  It has no
handlers, so it answers no event whatever; the command that registers a key fails; the command that shows the address of
the worker shows that of the key `axelar`, whichever key is configured. -/
theorem C108_mistaken (R : Leaves A) (nobody : Addr) (M : Machine A) (paths : List FilePath)
    (hp : ProperSources R M paths) (hm : Mistaken R M paths) (c : AmpdCfg) (hc : c = initConfig R nobody M paths) :
    c = .default nobody ∧ c.handlers = [] ∧
    (∀ {V D J : Type} (T : Tools V D J) (worker : Addr) (S : Nat → Surroundings D J) (e : Event (Abci V)),
      sentUpon T worker S e 0 c.handlers = []) ∧
    (∀ {K S : Type} (L : Lib) (T : Tofnd K S) (saved : Option Bytes) (t : CmdTx),
      registerPublicKey L T saved c.daemon ≠ .ok t) ∧
    (∀ {K S : Type} (L : Lib) (T : Tofnd K S), workerAddress L T none c.daemon = (T.keygen "axelar".toList).map L.account) := by
  have hd : c = .default nobody := by
    rw [hc]; unfold initConfig; rw [(C108_refused R nobody M paths hp).mpr hm]; rfl
  have hh : c.handlers = [] := by rw [hd]; exact default_handlers nobody
  have hk : c.daemon.keyUid = "axelar".toList := by rw [hd]; exact default_keyUid nobody
  refine ⟨hd, hh, fun T worker S e => by rw [hh, sentUpon], fun L T saved t => ?_,
    fun L T => by rw [workerAddress, workerKey, hk]⟩
  intro h
  unfold registerPublicKey at h
  rw [show c.daemon.handlers = [] from hh, multisigAddress] at h
  split at h
  · simp at h
  · simp at h

/-- C108: a daemon without handlers ends by itself, at once: from wherever it is, it can come to its end without a signal
and without anything failing; and if nothing fails, its result is success. -/
theorem C108_idle (as : List Action) (s : Tasks) (h : Reaches 0 as s) :
    (∃ bs s' r, (∀ a ∈ bs, a.Orderly) ∧ s.run bs = some s' ∧ s'.phase = .exited r) ∧
    ∀ r, s.phase = .exited r → (∀ t e, .ends t e ∈ as → e = .ok) → r = .ok () := by
  have hi := reaches_inv h
  constructor
  · by_cases hc : s.cancelled = true
    · exact (C93_shutdown 0 as s h hc).2.2
    have hw : s.phase = .waiting := by
      cases hp : s.phase with
      | waiting => rfl
      | draining r => exact absurd (hi.drainingCancelled r hp) hc
      | exited r => exact absurd (hi.exitedAll r hp).1 hc
    have hh : s.handlers = [] := List.eq_nil_of_length_eq_zero hi.count
    have hf := hi.waitingFresh hw .processor
    -- once the processor has ended, its end is noticed
    have notice : ∀ (s : Tasks) (bs : List Action), Reaches 0 (as ++ bs) s → s.phase = .waiting → s.cancelled ≠ true →
        ∀ e, s.ended .processor = some e → s.joined .processor = false →
        ∃ cs s' r, (∀ a ∈ cs, a.Orderly) ∧ s.run cs = some s' ∧ s'.phase = .exited r := by
      intro s bs hr hw hc e he hj
      have hstep : s.step (.join .processor) = some
          { s with joined := fun t' => if t' = .processor then true else s.joined t', cancelled := true,
                   phase := .draining (Job.processor.result e) } := by
        unfold Tasks.step
        simp only [he, hj, hw, hc, if_false, Bool.false_eq_true]
      have hr' : Reaches 0 ((as ++ bs) ++ [.join .processor])
          { s with joined := fun t' => if t' = .processor then true else s.joined t', cancelled := true,
                   phase := .draining (Job.processor.result e) } := by
        unfold Reaches at hr ⊢
        rw [tasks_run_append, hr, Option.bind_some]
        simp only [Tasks.run, hstep]
      obtain ⟨cs, s', r, h1, h2, h3⟩ := (C93_shutdown 0 _ _ hr' rfl).2.2
      refine ⟨.join .processor :: cs, s', r, ?_, by simp only [Tasks.run, hstep]; exact h2, h3⟩
      intro a ha
      rcases List.mem_cons.mp ha with rfl | ha
      · trivial
      · exact h1 a ha
    cases he : s.ended .processor with
    | some e => exact notice s [] (by simpa using h) hw hc e he hf
    | none =>
      have hstep : s.step (.ends .processor .ok) =
          some { s with ended := fun t' => if t' = .processor then some .ok else s.ended t' } := by
        unfold Tasks.step
        simp [he, Tasks.mayEnd, hh]
      have hr' : Reaches 0 (as ++ [.ends .processor .ok])
          { s with ended := fun t' => if t' = .processor then some .ok else s.ended t' } := by
        unfold Reaches at h ⊢
        rw [tasks_run_append, h, Option.bind_some]
        simp only [Tasks.run, hstep]
      obtain ⟨cs, s', r, h1, h2, h3⟩ := notice _ _ hr' hw hc .ok (by simp) hf
      refine ⟨.ends .processor .ok :: cs, s', r, ?_, by simp only [Tasks.run, hstep]; exact h2, h3⟩
      intro a ha
      rcases List.mem_cons.mp ha with rfl | ha
      · trivial
      · exact h1 a ha
  · intro r hp hok
    obtain ⟨as₁, t, hf⟩ := exited_noticed h (by rw [hp]; simp)
    obtain ⟨s₁, e, h1, h2, h3⟩ := tasks_noticed h hf
    have he : e = .ok := by
      rcases run_ended h1 h2 with h4 | h4
      · simp [Tasks.init] at h4
      · obtain ⟨as₂, rfl, _⟩ := hf
        exact hok t e (List.mem_append_left _ h4)
    subst he
    rw [hp] at h3
    simp only [reduceCtorEq, Phase.exited.injEq, false_or] at h3
    rw [h3]
    split <;> rfl

/-- C108, negation: so the process that refuses its configuration exits with success, if there are nodes at the default
addresses and none of its tasks fails. -/
theorem C108_success {K S : Type} (R : Leaves A) (nobody : Addr) (M : Machine A) (paths : List FilePath)
    (hp : ProperSources R M paths) (hm : Mistaken R M paths) (L : Lib) (O : Outside K S) (file : StateText)
    (app : AmpdCfg → Addr → StateFile → StateFile × Except DaemonError Unit) (s : Saved) (k : Bytes)
    (hs : file = .state s) (hk : s.key = some k) (hr : O.reachable (.default nobody) = true)
    (hn : O.known (L.account k) = true)
    (happ : ∀ cfg worker f, cfg.handlers = [] → ∃ as t, Reaches 0 as t ∧ t.phase = .exited (app cfg worker f).2 ∧
      ∀ j e, .ends j e ∈ as → e = .ok) :
    (daemonMain L O (initConfig R nobody M paths) file true app).2 = .ok () := by
  obtain ⟨hd, hh, _⟩ := C108_mistaken R nobody M paths hp hm _ rfl
  obtain ⟨as, t, h1, h2, h3⟩ := happ (initConfig R nobody M paths) (L.account k) s.heights hh
  have hok := (C108_idle as t h1).2 _ h2 h3
  subst hs
  unfold daemonMain loadState runApp prepareApp workerKey
  rw [hd] at hok ⊢
  simp only [hr, hk, hn, if_true, Bool.true_eq_false, if_false]
  cases ha : app (AmpdCfg.default nobody) (L.account k) s.heights with
  | mk hts r =>
    rw [ha] at hok
    dsimp only at hok
    subst hok
    rfl

/-- C108: the state file.  If it cannot be parsed, or if the daemon cannot be started, it stays as it is, and the process
fails; likewise if it cannot be written.  The key in it is kept for good, and the daemon acts for the worker with that key.
After a success it has the key of the worker that the daemon acted for. -/
theorem C108_state {K S : Type} (L : Lib) (O : Outside K S) (cfg : AmpdCfg) (file : StateText) (writable : Bool)
    (app : AmpdCfg → Addr → StateFile → StateFile × Except DaemonError Unit) (file' : StateText)
    (r : Except StartErr Unit) (h : daemonMain L O cfg file writable app = (file', r)) :
    (file = .invalid → file' = .invalid ∧ r = .error .loadConfig) ∧
    (∀ s e, file = .state s → prepareApp L O cfg s = .error e → file' = .state s ∧ r = .error e) ∧
    (writable = false → file' = file ∧ r ≠ .ok ()) ∧
    (∀ s k, file = .state s → s.key = some k → ∃ s', file' = .state s' ∧ s'.key = some k ∧
      ∀ w s'', prepareApp L O cfg s = .ok (w, s'') → w = L.account k) ∧
    (r = .ok () → ∃ s' k, file' = .state s' ∧ s'.key = some k ∧
      (∃ f, (app cfg (L.account k) f) = (s'.heights, .ok ())) ∧
      ∀ (T : Tofnd K S) (cfg' : DaemonCfg), workerKey T s'.key cfg' = some k) := by
  have key : ∀ (s : Saved) (k : Bytes), s.key = some k → workerKey O.tofnd s.key cfg.daemon = some k := by
    intro s k hk; unfold workerKey; rw [hk]
  refine ⟨?_, ?_, ?_, ?_, ?_⟩
  · rintro rfl
    simp only [daemonMain, loadState, Prod.mk.injEq] at h
    exact ⟨h.1.symm, h.2.symm⟩
  · rintro s e rfl hpre
    simp only [daemonMain, loadState, runApp, hpre] at h
    cases writable <;> simp only [Prod.mk.injEq] at h <;> exact ⟨h.1.symm, h.2.symm⟩
  · rintro rfl
    unfold daemonMain at h
    split at h
    · simp only [Prod.mk.injEq] at h; rw [← h.1, ← h.2]; simp
    · split at h
      · contradiction
      · simp only [Prod.mk.injEq] at h; rw [← h.1, ← h.2]; simp
      · simp only [Prod.mk.injEq] at h; rw [← h.1, ← h.2]; simp
  · rintro s k rfl hk
    have hpre : ∀ w s'', prepareApp L O cfg s = .ok (w, s'') → w = L.account k ∧ s''.key = some k := by
      intro w s'' hw
      unfold prepareApp at hw
      rw [key s k hk] at hw
      split at hw
      · simp at hw
      · dsimp only at hw
        split at hw
        · simp only [Except.ok.injEq, Prod.mk.injEq] at hw
          rw [← hw.1, ← hw.2]
          exact ⟨rfl, rfl⟩
        · simp at hw
    have hrun : (runApp L O cfg s app).1.key = some k := by
      unfold runApp
      split
      · exact hk
      · rename_i w s'' hw
        split
        · exact (hpre _ _ hw).2
        · exact (hpre _ _ hw).2
    unfold daemonMain at h
    simp only [loadState] at h
    split at h
    · rename_i s' r' heq
      simp only [Prod.mk.injEq] at h
      refine ⟨s', h.1.symm, ?_, fun w s'' hw => (hpre w s'' hw).1⟩
      rw [heq] at hrun
      exact hrun
    · simp only [Prod.mk.injEq] at h
      exact ⟨s, h.1.symm, hk, fun w s'' hw => (hpre w s'' hw).1⟩
    · simp only [Prod.mk.injEq] at h
      exact ⟨s, h.1.symm, hk, fun w s'' hw => (hpre w s'' hw).1⟩
  · rintro rfl
    unfold daemonMain at h
    split at h
    · simp at h
    · rename_i s hs
      split at h
      · rename_i s' r' heq
        simp only [Prod.mk.injEq] at h
        obtain ⟨h1, h2⟩ := h
        subst h2
        unfold runApp at heq
        split at heq
        · simp at heq
        · rename_i w s'' hw
          unfold prepareApp at hw
          split at hw
          · simp at hw
          · split at hw
            · simp at hw
            · rename_i k hk
              split at hw
              · simp only [Except.ok.injEq, Prod.mk.injEq] at hw
                obtain ⟨rfl, rfl⟩ := hw
                split at heq
                · rename_i hts u ha
                  simp only [Prod.mk.injEq] at heq
                  refine ⟨s', k, h1.symm, by rw [← heq.1], ⟨s.heights, ?_⟩, fun T cfg' => by rw [← heq.1]; rfl⟩
                  rw [← heq.1]
                  exact ha
                · simp at heq
              · simp at hw
      · simp at h
      · simp at h

/-- C108, negation: a state file that is there but cannot be read counts as missing.  A start that fails, for instance
because no node can be reached, then overwrites it with an empty state: the progress of the handlers and the key are gone,
and the next start begins with the latest block. -/
theorem C108_unreadable {K S : Type} (L : Lib) (O : Outside K S) (cfg : AmpdCfg)
    (app : AmpdCfg → Addr → StateFile → StateFile × Except DaemonError Unit) (e : StartErr)
    (he : prepareApp L O cfg ⟨[], none⟩ = .error e) :
    daemonMain L O cfg .unreadable true app = (.state ⟨[], none⟩, .error e) ∧ startFrom [] = none := by
  refine ⟨?_, rfl⟩
  simp only [daemonMain, loadState, runApp, he]

/-! ### A concrete case -/

/-- values of the example: texts and lists of handlers -/
abbrev ExLeaf := Str ⊕ List HandlerCfg

def exLeaves : Leaves ExLeaf where
  text a := a.getLeft?
  url a := a.getLeft?
  count a := a.getLeft?.map List.length
  addr a := a.getLeft?.map List.length
  chainId a := a.getLeft?
  duration a := a.getLeft?.map List.length
  number a := a.getLeft?
  price a := a.getLeft?
  handlers a := a.getRight?
  ofText s := .inl s
  lower s := s.map Char.toLower

/-- `main.rs:25`: the paths that are tried by default -/
def exPaths : List FilePath :=
  [⟨false, ["~".toList, ".ampd".toList, "config.toml".toList]⟩, ⟨false, ["config.toml".toList]⟩]

/-- the file in the home directory has a key id and one handler, the one in the working directory other handlers, and the
environment has the address of a node -/
def exMachine (hs : List HandlerCfg) : Machine ExLeaf where
  home := some ⟨true, ["root".toList]⟩
  file p :=
    if p = ⟨true, ["root".toList, ".ampd".toList, "config.toml".toList]⟩ then
      some (.parsed [("tm_grpc".toList, .leaf (.inl "tcp://a:9090".toList)), ("handlers".toList, .leaf (.inr [.suiMsg 7])),
        ("tofnd_config".toList, .table [("url".toList, .leaf (.inl "http://t".toList)),
          ("party_uid".toList, .leaf (.inl "ampd".toList)), ("key_uid".toList, .leaf (.inl "mine".toList))])])
    else if p = ⟨false, ["config.toml".toList]⟩ then
      some (.parsed [("handlers".toList, .leaf (.inr hs)),
        ("tofnd_config".toList, .table [("url".toList, .leaf (.inl "http://u".toList))])])
    else none
  env := [("PATH".toList, "/bin".toList), ("AMPD_TM_GRPC".toList, "tcp://b:9090".toList)]

/-- the sections are merged, and the handlers are those of the second file -/
example : parseConfig exLeaves 0 (exMachine [.multisig 18, .suiWorkerSet 9]) exPaths =
    some { AmpdCfg.default 0 with tmGrpc := "tcp://b:9090".toList, handlers := [.multisig 18, .suiWorkerSet 9],
                                  tofnd := ⟨"http://u".toList, "ampd".toList, "mine".toList⟩ } := by
  decide +kernel

theorem exProper (hs : List HandlerCfg) : ProperSources exLeaves (exMachine hs) exPaths := by
  have h1 : "tm_grpc".toList ∉ ["handlers".toList, "tofnd_config".toList] := by decide
  have h2 : "handlers".toList ∉ ["tofnd_config".toList] := by decide
  have h3 : "url".toList ∉ ["party_uid".toList, "key_uid".toList] := by decide
  have h4 : "party_uid".toList ∉ ["key_uid".toList] := by decide
  have he : sources exLeaves (exMachine hs) exPaths =
      [[("tm_grpc".toList, .leaf (.inl "tcp://a:9090".toList)), ("handlers".toList, .leaf (.inr [.suiMsg 7])),
        ("tofnd_config".toList, .table [("url".toList, .leaf (.inl "http://t".toList)),
          ("party_uid".toList, .leaf (.inl "ampd".toList)), ("key_uid".toList, .leaf (.inl "mine".toList))])],
       [("handlers".toList, .leaf (.inr hs)),
        ("tofnd_config".toList, .table [("url".toList, .leaf (.inl "http://u".toList))])],
       [("tm_grpc".toList, .leaf (.inl "tcp://b:9090".toList))]] := rfl
  intro s hs'
  rw [he] at hs'
  simp only [List.mem_cons, List.not_mem_nil, or_false] at hs'
  rcases hs' with rfl | rfl | rfl
  · exact ⟨h1, trivial, h2, trivial, (List.not_mem_nil : _ ∉ ([] : List Str)), ⟨h3, trivial, h4, trivial,
      (List.not_mem_nil : _ ∉ ([] : List Str)), trivial, trivial⟩, trivial⟩
  · exact ⟨h2, trivial, (List.not_mem_nil : _ ∉ ([] : List Str)),
      ⟨(List.not_mem_nil : _ ∉ ([] : List Str)), trivial, trivial⟩, trivial⟩
  · exact ⟨(List.not_mem_nil : _ ∉ ([] : List Str)), trivial, trivial⟩

/-- two signers are configured -/
theorem exMistaken : Mistaken exLeaves (exMachine [.multisig 18, .multisig 19]) exPaths :=
  (C108_refused exLeaves 0 _ _ (exProper _)).mp (by decide +kernel)

/-- a key manager with the toy keys of `CommandsProps.lean` and nodes everywhere -/
def exOutside : Outside Nat (Nat × Str) := ⟨fun _ => true, Signing.withMnemonics Signing.cmdTofnd [2], fun _ => true⟩

/-- the daemon ends at once, and nothing changes -/
def exApp : AmpdCfg → Addr → StateFile → StateFile × Except DaemonError Unit := fun _ _ f => (f, .ok ())

/-- all tasks of a daemon without handlers end in good order -/
def exIdle : List Action :=
  [.ends .processor .ok, .join .processor, .ends .eventSub .ok, .ends .broadcaster .ok, .ends .monitor .ok,
   .ends .updater .ok, .join .eventSub, .join .broadcaster, .join .monitor, .join .updater, .exit]

/-- C108 is false: with one handler too many, the daemon exits with success, without having done anything, and another
worker's address is shown than without this mistake. -/
theorem C108_counterexample :
    (daemonMain Signing.cmdLib exOutside (initConfig exLeaves 0 (exMachine [.multisig 18, .multisig 19]) exPaths)
      (.state ⟨[(0, 5)], some [1]⟩) true exApp) = (.state ⟨[(0, 5)], some [1]⟩, .ok ()) ∧
    (initConfig exLeaves 0 (exMachine [.multisig 18]) exPaths).tofnd.keyUid = "mine".toList ∧
    (initConfig exLeaves 0 (exMachine [.multisig 18, .multisig 19]) exPaths).tofnd.keyUid = "axelar".toList ∧
    (∃ s, Reaches 0 exIdle s ∧ s.phase = .exited (.ok ())) := by
  refine ⟨by decide +kernel, by decide +kernel, by decide +kernel, ⟨_, rfl, rfl⟩⟩

/-- the hypotheses of `C108_success` hold -/
example : (daemonMain Signing.cmdLib exOutside (initConfig exLeaves 0 (exMachine [.multisig 18, .multisig 19]) exPaths)
    (.state ⟨[(0, 5)], some [1]⟩) true exApp).2 = .ok () :=
  C108_success exLeaves 0 _ _ (exProper _) exMistaken Signing.cmdLib exOutside _ exApp _ [1] rfl rfl rfl rfl
    (fun _ _ _ _ => ⟨exIdle, _, rfl, rfl, by
      intro j e h
      simp only [exIdle, List.mem_cons, Action.ends.injEq, reduceCtorEq, List.not_mem_nil, or_false, false_or] at h
      rcases h with h | h | h | h | h <;> exact h.2⟩)

/-- the state is lost: the file could not be read, and the node cannot be reached -/
example : daemonMain Signing.cmdLib { exOutside with reachable := fun _ => false } (.default 0) .unreadable true exApp =
    (.state ⟨[], none⟩, .error .connection) := rfl

end Amp.Ampd
