import Verif.VV.ProgressProps

/-! # C15: which participation records there are -/

namespace Amp.VV

open Amp.Std

/-- C15: after a history in block order, the participation records ever sent are exactly those of the workers who
voted with the consensus in a finished poll. -/
theorem C15_records_exact (H : Hashes) (cfg : Config) (hv : cfg.Valid) (cs : List Call) (ho : InBlockOrder cs)
    (m : RewardMsg) :
    m ∈ rewardMsgs (history H cfg cs) ↔
      ∃ id sp a, m = ⟨cfg.rewards, showNat id, a⟩ ∧ (stateAfter H cfg cs).polls id = some sp ∧
        sp.poll.status = .finished ∧ a ∈ sp.poll.state.consensusParticipants := by
  suffices G : (∀ m, m ∈ rewardMsgs (history H cfg cs) ↔
      ∃ id sp a, m = ⟨cfg.rewards, showNat id, a⟩ ∧ (stateAfter H cfg cs).polls id = some sp ∧
        sp.poll.status = .finished ∧ a ∈ sp.poll.state.consensusParticipants) ∧
      ∀ id sp, (stateAfter H cfg cs).polls id = some sp → sp.poll.status = .finished →
        ∃ c ∈ cs, sp.poll.expiresAt ≤ c.height from G.1 m
  clear m
  induction cs using List.reverseRecOn with
  | nil =>
    refine ⟨fun m => ?_, ?_⟩
    · simp [history, outs, rewardMsgs, stateAfter, runCalls, init]
    · intro id sp h; simp [stateAfter, runCalls, init] at h
  | append_singleton cs c ih =>
    unfold InBlockOrder at ho
    rw [List.map_append, List.pairwise_append] at ho
    obtain ⟨ih1, ih2⟩ := ih ho.1
    have hlast : ∀ d ∈ cs, d.height ≤ c.height := fun d hd =>
      ho.2.2 _ (List.mem_map_of_mem (f := Call.height) hd) _ (by simp)
    have hi := inv_reachable H hv cs
    cases hx : exec H (stateAfter H cfg cs) c with
    | error e =>
      have h1 : history H cfg (cs ++ [c]) = history H cfg cs := by
        unfold history
        rw [outs_append, outs_cons_error (exec H) hx]
        simp [outs]
      have h2 : stateAfter H cfg (cs ++ [c]) = stateAfter H cfg cs := by
        unfold stateAfter at hx ⊢
        rw [runCalls_append, runCalls_cons, hx]
        rfl
      rw [h1, h2]
      refine ⟨ih1, fun id sp h hf => ?_⟩
      obtain ⟨d, hd, h⟩ := ih2 id sp h hf
      exact ⟨d, List.mem_append_left _ hd, h⟩
    | ok y =>
      obtain ⟨s', r⟩ := y
      have h1 : history H cfg (cs ++ [c]) = history H cfg cs ++ [(c, r)] := by
        unfold history
        rw [outs_append, outs_cons_ok (exec H) hx]
        simp [outs]
      have h2 : stateAfter H cfg (cs ++ [c]) = s' := by
        unfold stateAfter at hx ⊢
        rw [runCalls_append, runCalls_cons, hx]
        rfl
      have hrw : rewardMsgs (history H cfg cs ++ [(c, r)]) = rewardMsgs (history H cfg cs) ++ r.msgs := by
        simp [rewardMsgs]
      rw [h1, h2, hrw]
      have keep : ∀ id sp, (stateAfter H cfg cs).polls id = some sp → sp.poll.status = .finished →
          s'.polls id = some sp := by
        intro id sp h hf
        obtain ⟨d, hd, hle⟩ := ih2 id sp h hf
        exact finished_fixed (exec_pollStep hx) hi h hf (Nat.le_trans hle (hlast d hd))
      have lift : (∀ m, m ∈ r.msgs ↔ ∃ id sp a, m = ⟨cfg.rewards, showNat id, a⟩ ∧ s'.polls id = some sp ∧
            sp.poll.status = .finished ∧ a ∈ sp.poll.state.consensusParticipants ∧
            ∀ sp0, (stateAfter H cfg cs).polls id = some sp0 → sp0.poll.status ≠ .finished) →
          (∀ id sp, s'.polls id = some sp → sp.poll.status = .finished →
            (stateAfter H cfg cs).polls id = some sp ∨ sp.poll.expiresAt ≤ c.height) →
          (∀ m, m ∈ rewardMsgs (history H cfg cs) ++ r.msgs ↔
            ∃ id sp a, m = ⟨cfg.rewards, showNat id, a⟩ ∧ s'.polls id = some sp ∧
              sp.poll.status = .finished ∧ a ∈ sp.poll.state.consensusParticipants) ∧
          ∀ id sp, s'.polls id = some sp → sp.poll.status = .finished →
            ∃ d ∈ cs ++ [c], sp.poll.expiresAt ≤ d.height := by
        intro hm hold
        refine ⟨fun m => ?_, ?_⟩
        · rw [List.mem_append, ih1, hm]
          constructor
          · rintro (⟨id, sp, a, e1, e2, e3, e4⟩ | ⟨id, sp, a, e1, e2, e3, e4, _⟩)
            · exact ⟨id, sp, a, e1, keep id sp e2 e3, e3, e4⟩
            · exact ⟨id, sp, a, e1, e2, e3, e4⟩
          · rintro ⟨id, sp, a, e1, e2, e3, e4⟩
            by_cases hfin : ∃ sp0, (stateAfter H cfg cs).polls id = some sp0 ∧ sp0.poll.status = .finished
            · obtain ⟨sp0, g1, g2⟩ := hfin
              have := keep id sp0 g1 g2
              rw [e2] at this
              simp only [Option.some.injEq] at this
              subst this
              exact Or.inl ⟨id, sp, a, e1, g1, e3, e4⟩
            · exact Or.inr ⟨id, sp, a, e1, e2, e3, e4, fun sp0 g1 g2 => hfin ⟨sp0, g1, g2⟩⟩
        · intro id sp h hf
          rcases hold id sp h hf with h | h
          · obtain ⟨d, hd, hle⟩ := ih2 id sp h hf
            exact ⟨d, List.mem_append_left _ hd, hle⟩
          · exact ⟨c, by simp, h⟩
      cases exec_pollStep hx with
      | same hp hl hs hm =>
        refine lift ?_ (fun id sp h _ => Or.inl (by rw [← hp]; exact h))
        intro m
        rw [hm, hp]
        simp only [List.not_mem_nil, false_iff, not_exists]
        rintro id sp a ⟨_, e2, e3, _, e5⟩
        exact e5 sp e2 e3
      | opened k ws snap n hw hsn hp hl hs hm =>
        have hnew : ∀ id sp, s'.polls id = some sp → sp.poll.status = .finished →
            (stateAfter H cfg cs).polls id = some sp := by
          intro id sp h hf
          rw [hp, KV.set_apply] at h
          split at h
          · simp only [Option.some.injEq] at h; rw [← h] at hf; simp [Poll.new] at hf
          · exact h
        refine lift ?_ (fun id sp h hf => Or.inl (hnew id sp h hf))
        intro m
        rw [hm]
        simp only [List.not_mem_nil, false_iff, not_exists]
        rintro id sp a ⟨_, e2, e3, _, e5⟩
        exact e5 sp (hnew id sp e2 e3) e3
      | op id' sp0 o p hsp hxo hp hl hs ho =>
        rcases ho with ⟨vs, _, rfl, hm⟩ | ⟨_, rfl, hm⟩
        · have hnew : ∀ id sp, s'.polls id = some sp → sp.poll.status = .finished →
              (stateAfter H cfg cs).polls id = some sp := by
            intro id sp h hf
            rw [hp, KV.set_apply] at h
            split at h
            · rename_i hid
              subst hid
              simp only [Option.some.injEq] at h
              rw [← h] at hf
              have hf0 : sp0.poll.status = .finished := by
                rcases Poll.exec_ok hxo with ⟨_, _, _, _, hc⟩ | ⟨_, hc, _⟩
                · obtain ⟨_, _, _, _, _, rfl⟩ := Poll.castVote_ok hc
                  exact hf
                · simp at hc
              have := keep id sp0 hsp hf0
              rw [hp, KV.set_apply, if_pos rfl] at this
              rw [hsp, ← this, h]
            · exact h
          refine lift ?_ (fun id sp h hf => Or.inl (hnew id sp h hf))
          intro m
          rw [hm]
          simp only [List.not_mem_nil, false_iff, not_exists]
          rintro id sp a ⟨_, e2, e3, _, e5⟩
          exact e5 sp (hnew id sp e2 e3) e3
        · rcases Poll.exec_ok hxo with ⟨_, _, _, hc, _⟩ | ⟨_, hc, hfin⟩
          · simp at hc
          simp only [PollOp.finish.injEq] at hc
          subst hc
          obtain ⟨f1, f2, rfl⟩ := Poll.finish_ok hfin
          refine lift ?_ ?_
          · intro m
            rw [hm, hi.config, List.mem_map]
            constructor
            · rintro ⟨a, ha, rfl⟩
              have hset := congrFun hp id'
              rw [KV.set_apply, if_pos rfl] at hset
              refine ⟨id', _, a, rfl, hset, rfl, ha, ?_⟩
              intro x hx'
              rw [hsp] at hx'
              simp only [Option.some.injEq] at hx'
              rw [← hx', f1]
              simp
            · rintro ⟨id, sp, a, rfl, e2, e3, e4, e5⟩
              rw [hp, KV.set_apply] at e2
              split at e2
              · rename_i hid
                simp only [Option.some.injEq] at e2
                subst e2 hid
                exact ⟨a, e4, rfl⟩
              · exact absurd e3 (e5 sp e2)
          · intro id sp h hf
            rw [hp, KV.set_apply] at h
            split at h
            · simp only [Option.some.injEq] at h
              right
              rw [← h]
              exact f2
            · exact Or.inl h

/-- in the example, two workers voted with the consensus of the first poll, which was ended -/
example : InBlockOrder exCalls ∧ rewardMsgs (history exH exCfg exCalls) =
    [⟨91, "1".toList, 1⟩, ⟨91, "1".toList, 2⟩] := by
  constructor
  · unfold InBlockOrder; decide
  · decide

end Amp.VV
