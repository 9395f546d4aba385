import Verif.Chain.BankLemmas
import Verif.Chain.ProgressProps
import Verif.Rewards.Accepts

/-! # Lemmas about participation records -/

namespace Amp.Chain

variable {P : Params} {setup : Setup}

/-! ### Every entry of a transaction comes from a call in its block -/

theorem deliver_entries {b : Block} {w w' : World} {p : Pending} {es : List Entry} {out : List Pending}
    (h : deliver P b w p = .ok (w', es, out)) :
    ∀ e ∈ es, ∃ w1 reply s', call P b w1 e.p reply = .ok (s', e.act) := by
  intro e he
  unfold deliver at h
  split at h
  · split at h
    · split at h
      · simp at h
      · simp only at h
        split at h
        · rename_i ms mc mr hq
          split at h
          · simp at h
          · rename_i s1 a hc
            simp only [Except.ok.injEq, Prod.mk.injEq] at h
            obtain ⟨_, rfl, _⟩ := h
            simp only [List.mem_cons, List.not_mem_nil, or_false] at he
            rcases he with rfl | rfl
            · exact ⟨_, _, _, hc⟩
            · exact ⟨_, _, _, hq⟩
        · simp at h
    · simp at h
  · split at h
    · simp at h
    · rename_i s1 a hc
      simp only [Except.ok.injEq, Prod.mk.injEq] at h
      obtain ⟨_, rfl, _⟩ := h
      simp only [List.mem_cons, List.not_mem_nil, or_false] at he
      subst he
      exact ⟨_, _, _, hc⟩

theorem run_entries {b : Block} {accepts : Addr → Bool} (n : Nat) :
    ∀ {w w' : World} {ps : List Pending} {es : List Entry}, run P b accepts n w ps = .ok (w', es) →
      ∀ e ∈ es, ∃ w1 reply s', call P b w1 e.p reply = .ok (s', e.act) := by
  induction n with
  | zero =>
    intro w w' ps es h
    cases ps with
    | nil => simp only [run, Except.ok.injEq, Prod.mk.injEq] at h; rw [← h.2]; simp
    | cons p t => simp [run] at h
  | succ n ih =>
    intro w w' ps es h
    cases ps with
    | nil => simp only [run, Except.ok.injEq, Prod.mk.injEq] at h; rw [← h.2]; simp
    | cons p t =>
      rw [run] at h
      split at h
      · exact ih h
      · cases hd : deliver P b w p with
        | error e => rw [hd] at h; simp at h
        | ok y =>
          obtain ⟨w1, es1, out⟩ := y
          rw [hd] at h
          simp only at h
          cases hr : run P b accepts n w1 (out ++ t) with
          | error e => rw [hr] at h; simp at h
          | ok z =>
            obtain ⟨w2, es2⟩ := z
            rw [hr] at h
            simp only [Except.ok.injEq, Prod.mk.injEq] at h
            obtain ⟨rfl, rfl⟩ := h
            intro e he
            rcases List.mem_append.mp he with he | he
            · exact deliver_entries hd e he
            · exact ih hr e he

theorem exec_entries {w w' : World} {tx : Tx} {es : List Entry} (h : exec P w tx = .ok (w', es)) :
    ∀ e ∈ es, ∃ w1 reply s', call P tx.block w1 e.p reply = .ok (s', e.act) := by
  unfold exec at h
  split at h
  · simp at h
  · exact run_entries _ h

theorem call_rewards_height {b : Block} {w : World} {p : Pending} {reply : Option (Option Nat)} {s' : Store}
    {c : Rewards.Call} {r : Rewards.Resp} (h : call P b w p reply = .ok (s', .rewards c r)) :
    c.height = b.height ∧ c.sender = p.sender ∧ p.msg = .rewards c.msg := by
  unfold call at h
  split at h
  · simp at h
  all_goals
    split at h
    · first
      | (split at h
         · simp at h
         · rename_i hm _ _ _ _
           simp only [Except.ok.injEq, Prod.mk.injEq, Act.rewards.injEq] at h
           obtain ⟨_, rfl, _⟩ := h
           exact ⟨rfl, rfl, hm⟩)
      | (simp only at h
         split at h <;> simp at h)
      | (split at h <;> simp at h)
    · simp at h

/-! ### The calls of the rewards contract -/

theorem rewardsCalls_append (a : Addr) (l l' : List Entry) :
    rewardsCalls a (l ++ l') = rewardsCalls a l ++ rewardsCalls a l' := by
  simp [rewardsCalls, actsAt_append]

theorem rewardsCalls_length (a : Addr) (l : List Entry) : (rewardsCalls a l).length ≤ l.length := by
  unfold rewardsCalls actsAt
  refine Nat.le_trans (List.length_filterMap_le _ _) ?_
  rw [List.length_map]
  exact List.length_filter_le _ _

theorem rewardsCalls_mem {a : Addr} {l : List Entry} {c : Rewards.Call} (h : c ∈ rewardsCalls a l) :
    ∃ e ∈ l, e.p.target = a ∧ ∃ r, e.act = .rewards c r := by
  obtain ⟨x, hx, hc⟩ := List.mem_filterMap.mp h
  obtain ⟨e, he, ht, hact⟩ := mem_actsAt hx
  cases x with
  | rewards c' r =>
    simp only [Act.rewardsCall?, Option.some.injEq] at hc
    subst hc
    exact ⟨e, he, ht, r, hact⟩
  | _ => simp [Act.rewardsCall?] at hc

theorem log_entries (P : Params) (setup : Setup) (txs : List Tx) :
    ∀ e ∈ log P setup txs, ∃ tx ∈ txs, ∃ w reply s', call P tx.block w e.p reply = .ok (s', e.act) := by
  induction txs using List.reverseRecOn with
  | nil => intro e he; simp [log, outs] at he
  | append_singleton t tx ih =>
    intro e he
    cases hx : exec P (worldAfter P setup t) tx with
    | error x =>
      have hl : log P setup (t ++ [tx]) = log P setup t := by
        unfold log
        rw [outs_append]
        have : outs (exec P) (runCalls (exec P) (genesis setup) t) [tx] = [] := by
          unfold worldAfter at hx
          rw [outs_cons_error (exec P) hx]; rfl
        rw [this, List.append_nil]
      rw [hl] at he
      obtain ⟨y, hy, h⟩ := ih e he
      exact ⟨y, List.mem_append_left _ hy, h⟩
    | ok y =>
      obtain ⟨w', es⟩ := y
      rw [(log_snoc hx).2] at he
      rcases List.mem_append.mp he with he | he
      · obtain ⟨y, hy, h⟩ := ih e he
        exact ⟨y, List.mem_append_left _ hy, h⟩
      · exact ⟨tx, by simp, exec_entries hx e he⟩

theorem log_snoc_error {txs : List Tx} {tx : Tx} (hx : ∀ y, exec P (worldAfter P setup txs) tx ≠ .ok y) :
    log P setup (txs ++ [tx]) = log P setup txs ∧
      worldAfter P setup (txs ++ [tx]) = worldAfter P setup txs := by
  cases he : exec P (worldAfter P setup txs) tx with
  | ok y => exact absurd he (hx y)
  | error x =>
    unfold worldAfter at he
    constructor
    · unfold log
      rw [outs_append, outs_cons_error (exec P) he]
      simp [outs]
    · unfold worldAfter
      rw [runCalls_append, runCalls_cons, he]
      rfl

/-! ### Room at the rewards contract -/

/-- the rewards contract at `R` accepts records: see `Rewards.Room` -/
theorem room_log (P : Params) (setup : Setup) (txs : List Tx) {R : Addr} {cfg : Rewards.Config}
    {p : Rewards.Params} {h0 : Nat} (hR : setup R = some (.rewards cfg p h0)) (ho : InOrder txs)
    (h0le : ∀ tx ∈ txs, h0 ≤ tx.block.height) (hp : 0 < p.duration)
    (hu : ∀ e ∈ log P setup txs, e.p.target = R → ∀ q, e.p.msg = .rewards (.updateParams q) → 0 < q.duration)
    {h : Nat} (hh0 : h0 ≤ h) (hh : ∀ tx ∈ txs, tx.block.height ≤ h) :
    ∃ s, worldAfter P setup txs R = some (.rewards s) ∧ Rewards.Inv s ∧
      Rewards.Room s h (log P setup txs).length := by
  refine ⟨_, (inv P setup txs).rewards_state hR, Rewards.inv_reachable cfg p h0 _, ?_⟩
  -- the room that is left at the height of the last transaction
  suffices H : ∃ hl, h0 ≤ hl ∧ hl ≤ h ∧ (∀ tx ∈ txs, tx.block.height ≤ hl) ∧
      (hl = h0 ∨ ∃ tx ∈ txs, hl = tx.block.height) ∧
      Rewards.Room (Rewards.stateAfter cfg p h0 (rewardsCalls R (log P setup txs))) hl
        (rewardsCalls R (log P setup txs)).length by
    obtain ⟨hl, _, hle, _, _, hroom⟩ := H
    exact hroom.mono hle (rewardsCalls_length R _)
  induction txs using List.reverseRecOn with
  | nil =>
    refine ⟨h0, Nat.le_refl _, hh0, by simp, Or.inl rfl, ?_⟩
    have : log P setup [] = [] := rfl
    rw [this]
    exact ⟨hp, Nat.zero_le _, Nat.le_refl _,
      by intro k e t ht; simp [rewardsCalls, actsAt, Rewards.stateAfter, runCalls, Rewards.init, KV.empty] at ht,
      by intro k e t ht; simp [rewardsCalls, actsAt, Rewards.stateAfter, runCalls, Rewards.init, KV.empty] at ht⟩
  | append_singleton t tx ih =>
    have hin : tx ∈ t ++ [tx] := by simp
    have hmem : ∀ y ∈ t, y ∈ t ++ [tx] := fun y hy => List.mem_append_left _ hy
    unfold InOrder at ho
    rw [List.map_append, List.pairwise_append] at ho
    have hlast : ∀ y ∈ t, y.block.height ≤ tx.block.height := fun y hy =>
      ho.2.2 _ (List.mem_map_of_mem (f := fun t : Tx => t.block.height) hy) _ (by simp)
    have step : ∀ es, log P setup (t ++ [tx]) = log P setup t ++ es →
        (∀ e ∈ es, ∃ w1 reply s', call P tx.block w1 e.p reply = .ok (s', e.act)) →
        ∃ hl, h0 ≤ hl ∧ hl ≤ h ∧ (∀ y ∈ t ++ [tx], y.block.height ≤ hl) ∧
          (hl = h0 ∨ ∃ y ∈ t ++ [tx], hl = y.block.height) ∧
          Rewards.Room (Rewards.stateAfter cfg p h0 (rewardsCalls R (log P setup (t ++ [tx])))) hl
            (rewardsCalls R (log P setup (t ++ [tx]))).length := by
      intro es hl hes
      obtain ⟨hl', g1, g2, g3, g4, g5⟩ := ih ho.1 (fun y hy => h0le y (hmem y hy))
        (fun e he => hu e (by rw [hl]; exact List.mem_append_left _ he)) (fun y hy => hh y (hmem y hy))
      have hle : hl' ≤ tx.block.height := by
        rcases g4 with rfl | ⟨y, hy, rfl⟩
        · exact h0le tx hin
        · exact hlast y hy
      refine ⟨tx.block.height, h0le tx hin, hh tx hin, ?_, Or.inr ⟨tx, hin, rfl⟩, ?_⟩
      · intro y hy
        rcases List.mem_append.mp hy with hy | hy
        · exact hlast y hy
        · simp only [List.mem_cons, List.not_mem_nil, or_false] at hy; subst hy; exact Nat.le_refl _
      · have hheight : ∀ c ∈ rewardsCalls R es, c.height = tx.block.height := by
          intro c hc
          obtain ⟨e, he, _, r, hact⟩ := rewardsCalls_mem hc
          obtain ⟨w1, reply, s', hcall⟩ := hes e he
          rw [hact] at hcall
          exact (call_rewards_height hcall).1
        have hdur : ∀ c ∈ rewardsCalls R es, ∀ q, c.msg = .updateParams q → 0 < q.duration := by
          intro c hc q hq
          obtain ⟨e, he, ht, r, hact⟩ := rewardsCalls_mem hc
          obtain ⟨w1, reply, s', hcall⟩ := hes e he
          rw [hact] at hcall
          refine hu e (by rw [hl]; exact List.mem_append_right _ he) ht q ?_
          rw [(call_rewards_height hcall).2.2, hq]
        have hfrom : ∀ (cs : List Rewards.Call) (k : Nat), k ≤ tx.block.height →
            (∀ c ∈ cs, c.height = tx.block.height) → Rewards.HeightsFrom k cs := by
          intro cs
          induction cs with
          | nil => intro k _ _; trivial
          | cons c cs ih2 =>
            intro k hk hc
            have := hc c List.mem_cons_self
            exact ⟨by omega, ih2 c.height (by omega) (fun d hd => hc d (List.mem_cons_of_mem _ hd))⟩
        rw [hl, rewardsCalls_append, List.length_append]
        unfold Rewards.stateAfter
        rw [runCalls_append]
        exact Rewards.room_run (rewardsCalls R es) (Rewards.inv_reachable cfg p h0 _) g5
          (hfrom _ hl' hle hheight) hdur hle (fun c hc => Nat.le_of_eq (hheight c hc))
    by_cases hx : ∃ y, exec P (worldAfter P setup t) tx = .ok y
    · obtain ⟨⟨w', es⟩, hx⟩ := hx
      exact step es (log_snoc hx).2 (exec_entries hx)
    · have := (log_snoc_error (P := P) (setup := setup) (txs := t) (tx := tx)
        (fun y hy => hx ⟨y, hy⟩)).1
      exact step [] (by rw [this, List.append_nil]) (by simp)

/-! ### Delivering records -/

theorem run_records (b : Block) (accepts : Addr → Bool) (k R : Addr) (hmax : b.height ≤ u64Max) :
    ∀ (xs : List (Str × Addr)) (w : World) (n m : Nat) (s : Rewards.State), w R = some (.rewards s) →
      Rewards.Inv s → Rewards.Room s b.height m → m + xs.length ≤ u64Max → xs.length ≤ n →
      ∃ w' es, run P b accepts n w (xs.map (fun x => ⟨k, R, [], .rewards (.recordParticipation x.1 x.2)⟩)) =
          .ok (w', es) ∧
        es.map (·.p) = xs.map (fun x => ⟨k, R, [], .rewards (.recordParticipation x.1 x.2)⟩) ∧
        ∀ a, a ≠ R → w' a = w a := by
  intro xs
  induction xs with
  | nil => intro w n m s _ _ _ _ _; exact ⟨w, [], by simp [run], rfl, fun _ _ => rfl⟩
  | cons x t ih =>
    intro w n m s hw hi hr hm hn
    obtain ⟨n', rfl⟩ : ∃ j, n = j + 1 := ⟨n - 1, by simp only [List.length_cons] at hn; omega⟩
    simp only [List.length_cons] at hn hm
    obtain ⟨s', hx⟩ := Rewards.record_accepted hr x.1 x.2 k hmax (by omega)
    have hexec : Rewards.exec s ⟨k, [], b.height, .recordParticipation x.1 x.2⟩ = .ok (s', {}) := hx
    have hdel : deliver P b w ⟨k, R, [], .rewards (.recordParticipation x.1 x.2)⟩ =
        .ok (w.set R (.rewards s'), [⟨⟨k, R, [], .rewards (.recordParticipation x.1 x.2)⟩,
          .rewards ⟨k, [], b.height, .recordParticipation x.1 x.2⟩ {}⟩], []) := by
      unfold deliver
      simp only [hw]
      unfold call
      simp only [hw, hexec]
      rfl
    rw [List.map_cons, run, if_neg (by simp [hw]), hdel]
    simp only [List.nil_append]
    obtain ⟨w', es, h1, h2, h3⟩ := ih (w.set R (.rewards s')) n' (m + 1) s' (KV.set_self _ _ _)
      (Rewards.inv_step hi hexec)
      (Rewards.room_step hi hr (Nat.le_refl _) (by simp) hexec) (by omega) (by omega)
    rw [h1]
    refine ⟨w', _, rfl, ?_, ?_⟩
    · simp [h2]
    · intro a ha
      rw [h3 a ha, KV.set_ne _ _ ha]

end Amp.Chain
