import Verif.Chain.RecordProps
import Verif.Rewards.Books
import Verif.VV.RecordProps

/-! # Lemmas: every message that a contract sends to a contract is delivered exactly once -/

namespace Amp.Chain

variable {P : Params} {setup : Setup}

/-- a delivery: what was executed and what is still to be delivered are the message and what was sent -/
theorem deliver_balance {b : Block} {w w' : World} {p : Pending} {es : List Entry} {out : List Pending}
    (h : deliver P b w p = .ok (w', es, out)) :
    es.map (·.p) ++ out = p :: es.flatMap Entry.sent ∧ ∀ a, (w' a).isSome = (w a).isSome := by
  have hset : ∀ (u : World) (a c : Addr) (s : Store), (u c).isSome = true →
      ((u.set c s) a).isSome = (u a).isSome := by
    intro u a c s hc
    by_cases hac : a = c
    · rw [hac, KV.set_self, hc]; rfl
    · rw [KV.set_ne _ _ hac]
  unfold deliver at h
  split at h
  · rename_i s sv kt hw
    split at h
    · rename_i m hm
      split at h
      · simp at h
      · rename_i s1 o hh
        simp only at h
        split at h
        · rename_i ms mc mr hq
          split at h
          · simp at h
          · rename_i s' a hc
            simp only [Except.ok.injEq, Prod.mk.injEq] at h
            obtain ⟨rfl, rfl, rfl⟩ := h
            constructor
            · have hs : Entry.sent ⟨p, a⟩ = [⟨p.target, s.config.multisig, [], .multisig o.toMultisig⟩] := by
                unfold call at hc
                rw [hw, hm] at hc
                simp only at hc
                split at hc
                · simp at hc
                · rename_i s2 r hx
                  simp only [Except.ok.injEq, Prod.mk.injEq] at hc
                  obtain ⟨_, rfl⟩ := hc
                  simp only [Entry.sent, Act.outs, List.map_cons, List.map_nil]
                  rw [exec_out hx hh]
              simp [hs]
            · intro x
              obtain ⟨sm, hsm⟩ := call_multisig_store hq
              simp only at hsm
              rw [hset, hset _ _ _ _ (by rw [hw]; rfl)]
              rw [hset _ _ _ _ (by rw [hw]; rfl), hsm]
              rfl
        · simp at h
    · simp at h
  · split at h
    · simp at h
    · rename_i s' a hc
      simp only [Except.ok.injEq, Prod.mk.injEq] at h
      obtain ⟨rfl, rfl, rfl⟩ := h
      refine ⟨by simp, fun x => hset _ _ _ _ ?_⟩
      cases hw : w p.target with
      | some s => rfl
      | none => unfold call at hc; rw [hw] at hc; simp at hc

theorem run_balance {b : Block} {accepts : Addr → Bool} (n : Nat) :
    ∀ {w w' : World} {ps : List Pending} {es : List Entry}, run P b accepts n w ps = .ok (w', es) →
      ∀ x : Pending, (w x.target).isSome = true →
        (es.map (·.p)).count x = ps.count x + (es.flatMap Entry.sent).count x := by
  induction n with
  | zero =>
    intro w w' ps es h x _
    cases ps with
    | nil => simp only [run, Except.ok.injEq, Prod.mk.injEq] at h; rw [← h.2]; rfl
    | cons p t => simp [run] at h
  | succ n ih =>
    intro w w' ps es h x hx
    cases ps with
    | nil => simp only [run, Except.ok.injEq, Prod.mk.injEq] at h; rw [← h.2]; rfl
    | cons p t =>
      rw [run] at h
      split at h
      · rename_i hn
        have hne : p ≠ x := by
          rintro rfl
          rw [← Option.not_isSome, hx] at hn
          simp at hn
        rw [ih h x hx, List.count_cons_of_ne hne]
      · cases hd : deliver P b w p with
        | error e => rw [hd] at h; simp at h
        | ok y =>
          obtain ⟨w1, es1, out⟩ := y
          rw [hd] at h
          simp only at h
          cases hr : run P b accepts n w1 (out ++ t) with
          | error e => rw [hr] at h; simp at h
          | ok z =>
            obtain ⟨w2, es2⟩ := z
            rw [hr] at h
            simp only [Except.ok.injEq, Prod.mk.injEq] at h
            obtain ⟨rfl, rfl⟩ := h
            obtain ⟨h1, h2⟩ := deliver_balance hd
            have h3 := ih hr x (by rw [h2]; exact hx)
            have h4 := congrArg (List.count x) h1
            rw [List.count_append] at h4 h3
            rw [List.map_append, List.flatMap_append, List.count_append, List.count_append, h3]
            rw [List.count_cons] at h4 ⊢
            omega

theorem world_isSome (P : Params) (setup : Setup) (txs : List Tx) (a : Addr) :
    (worldAfter P setup txs a).isSome = (setup a).isSome := by
  rw [(inv P setup txs).world]
  simp [worldOf]

/-- Over a history, what a contract sent to a contract was delivered, as often as it was sent. -/
theorem log_balance (P : Params) (setup : Setup) (txs : List Tx) (x : Pending) (hs : (setup x.sender).isSome = true)
    (ht : (setup x.target).isSome = true) :
    ((log P setup txs).map (·.p)).count x = ((log P setup txs).flatMap Entry.sent).count x := by
  induction txs using List.reverseRecOn with
  | nil => rfl
  | append_singleton t tx ih =>
    by_cases hx : ∃ y, exec P (worldAfter P setup t) tx = .ok y
    · obtain ⟨⟨w', es⟩, hx⟩ := hx
      rw [(log_snoc hx).2, List.map_append, List.flatMap_append, List.count_append, List.count_append, ih]
      unfold exec at hx
      split at hx
      · simp at hx
      · rename_i hsend
        rw [world_isSome] at hsend
        have hr := run_balance _ hx x (by rw [world_isSome]; exact ht)
        have h0 : (tx.msgs.map (fun m => (⟨tx.sender, m.1, m.2.1, m.2.2⟩ : Pending))).count x = 0 := by
          rw [List.count_eq_zero]
          intro hm
          obtain ⟨m, _, rfl⟩ := List.mem_map.mp hm
          exact hsend hs
        rw [hr, h0]
        omega
    · rw [(log_snoc_error (fun y hy => hx ⟨y, hy⟩)).1]
      exact ih

/-! ### Records -/

/-- the record in a message from `k` to `R`: event and worker -/
def recordIn (k R : Addr) (p : Pending) : Option (Str × Addr) :=
  if p.sender = k ∧ p.target = R then
    match p.msg with
    | .rewards (.recordParticipation ev a) => some (ev, a)
    | _ => none
  else none

/-- the records that a call makes, if addressed to `R` -/
def recordOut (R : Addr) (o : Addr × Msg) : Option (Str × Addr) :=
  if o.1 = R then
    match o.2 with
    | .rewards (.recordParticipation ev a) => some (ev, a)
    | _ => none
  else none

theorem sent_records (k R : Addr) (l : List Entry) :
    (l.flatMap Entry.sent).filterMap (recordIn k R) =
      (actsAt k l).flatMap (fun a => a.outs.filterMap (recordOut R)) := by
  induction l with
  | nil => rfl
  | cons e l ih =>
    have h1 : actsAt k (e :: l) = (if e.p.target = k then [e.act] else []) ++ actsAt k l := by
      unfold actsAt
      rw [List.filter_cons]
      split <;> rename_i h
      · simp only [decide_eq_true_eq] at h; simp [h]
      · simp only [decide_eq_true_eq] at h; simp [h]
    rw [List.flatMap_cons, List.filterMap_append, ih, h1, List.flatMap_append]
    congr 1
    unfold Entry.sent
    rw [List.filterMap_map]
    split
    · rename_i h
      simp only [List.flatMap_cons, List.flatMap_nil, List.append_nil]
      congr 1
      funext o
      simp only [Function.comp_apply, recordIn, recordOut, h, true_and]
    · rename_i h
      simp only [List.flatMap_nil]
      rw [List.filterMap_eq_nil_iff]
      intro o _
      simp only [Function.comp_apply, recordIn, h, false_and, if_false]

/-- The records that `R` received from `k` are those that `k` sent. -/
theorem records_perm (P : Params) (setup : Setup) (txs : List Tx) {k R : Addr} (hk : (setup k).isSome = true)
    (hR : (setup R).isSome = true) :
    (((log P setup txs).map (·.p)).filterMap (recordIn k R)).Perm
      ((actsAt k (log P setup txs)).flatMap (fun a => a.outs.filterMap (recordOut R))) := by
  rw [← sent_records]
  have hf : ∀ l : List Pending, l.filterMap (recordIn k R) =
      (l.filter (fun p => (recordIn k R p).isSome)).filterMap (recordIn k R) := by
    intro l
    rw [List.filterMap_filter]
    apply List.filterMap_congr
    intro x _
    cases h : recordIn k R x <;> simp
  rw [hf, hf ((log P setup txs).flatMap Entry.sent)]
  apply List.Perm.filterMap
  rw [List.perm_iff_count]
  intro x
  by_cases hx : (recordIn k R x).isSome = true
  · rw [List.count_filter (p := fun p => (recordIn k R p).isSome) hx,
      List.count_filter (p := fun p => (recordIn k R p).isSome) hx]
    have : x.sender = k ∧ x.target = R := by
      unfold recordIn at hx
      split at hx
      · assumption
      · simp at hx
    exact log_balance P setup txs x (by rw [this.1]; exact hk) (by rw [this.2]; exact hR)
  · rw [List.count_eq_zero_of_not_mem (by simp [hx]), List.count_eq_zero_of_not_mem (by simp [hx])]

/-- the record asked for by a call from `k` -/
def callRecord (k : Addr) (c : Rewards.Call) : Option (Str × Addr) :=
  match c.msg with
  | .recordParticipation ev a => if c.sender = k then some (ev, a) else none
  | _ => none

theorem trace_records (k : Addr) (cfg : Rewards.Config) (p : Rewards.Params) (h0 : Nat) (cs : List Rewards.Call) :
    (Rewards.records k (Rewards.trace cfg p h0 cs)).map (fun r => (r.1, r.2.1)) =
      ((Rewards.trace cfg p h0 cs).map (·.call)).filterMap (callRecord k) := by
  unfold Rewards.records
  rw [List.map_filterMap, List.filterMap_map]
  apply List.filterMap_congr
  intro st hst
  obtain ⟨_, hx⟩ := steps_mem _ hst
  simp only [Function.comp_apply, Rewards.recordOf, callRecord]
  cases hm : st.call.msg with
  | recordParticipation ev a =>
    simp only
    by_cases hs : st.call.sender = k
    · simp only [hs, if_true]
      cases he : Rewards.currentEpoch st.pre st.call.height with
      | ok e => simp [Rewards.epochNum, he]
      | error e =>
        simp only [Rewards.exec, hm, Rewards.recordParticipation, he] at hx
        simp at hx
    · simp [hs]
  | _ => rfl

/-- the records made by the rewards contract are those of the messages it received -/
theorem rewards_records (P : Params) (setup : Setup) (txs : List Tx) (k : Addr) {R : Addr} {cfg : Rewards.Config}
    {p : Rewards.Params} {h0 : Nat} (hR : setup R = some (.rewards cfg p h0)) :
    (Rewards.records k (Rewards.trace cfg p h0 (rewardsCalls R (log P setup txs)))).map (fun r => (r.1, r.2.1)) =
      ((log P setup txs).map (·.p)).filterMap (recordIn k R) := by
  have hi := inv P setup txs
  have hm := hi.acts R _ hR
  simp only [Matches] at hm
  have h2 : (Rewards.trace cfg p h0 (rewardsCalls R (log P setup txs))).map (·.call) =
      rewardsCalls R (log P setup txs) := by
    have := congrArg (List.filterMap Act.rewardsCall?) hm
    rw [outs_eq_steps, List.map_map, List.filterMap_map] at this
    simp only [Function.comp_def, Act.rewardsCall?, List.filterMap_eq_map'] at this
    exact this.symm
  rw [trace_records, h2, List.filterMap_map]
  have hk : ∀ e ∈ log P setup txs, e.p.target = R → ∃ c r, e.act = .rewards c r ∧ c.sender = e.p.sender ∧
      e.p.msg = .rewards c.msg := by
    intro e he ht
    obtain ⟨l₁, l₂, hl⟩ := List.append_of_mem he
    obtain ⟨m, t, r, s', hmsg, hact, _⟩ := hi.rewards_call hl (by rw [ht]; exact hR)
    exact ⟨_, r, hact, rfl, hmsg⟩
  clear hi hm h2
  generalize log P setup txs = l at hk
  induction l with
  | nil => rfl
  | cons e l ih =>
    have ih := ih (fun x hx => hk x (List.mem_cons_of_mem _ hx))
    rw [show e :: l = [e] ++ l from rfl, rewardsCalls_append, List.filterMap_append, List.filterMap_append, ih]
    congr 1
    by_cases ht : e.p.target = R
    · obtain ⟨c, r, hact, hsend, hmsg⟩ := hk e List.mem_cons_self ht
      unfold rewardsCalls
      rw [actsAt_self R e ht, hact]
      simp only [List.filterMap_cons, List.filterMap_nil, Act.rewardsCall?, Function.comp_apply, recordIn, ht,
        hmsg, callRecord, ← hsend, and_true]
      cases c.msg with
      | recordParticipation ev a => by_cases hs : c.sender = k <;> simp [hs]
      | _ => by_cases hs : c.sender = k <;> simp [hs]
    · unfold rewardsCalls
      rw [actsAt_other R e ht]
      simp [recordIn, ht]

/-- If the records that `k` sends to the rewards contract are those of the work `took`, each once, then what is due
from its pool follows that work. -/
theorem follows_of_sent (P : Params) (setup : Setup) (txs : List Tx) {k R : Addr} {cfg : Rewards.Config}
    {p : Rewards.Params} {h0 : Nat} (hR : setup R = some (.rewards cfg p h0)) (hk : (setup k).isSome = true)
    (took : Nat → Addr → Bool)
    (hnd : ((actsAt k (log P setup txs)).flatMap (fun a => a.outs.filterMap (recordOut R))).Nodup)
    (hmem : ∀ ev a, (ev, a) ∈ (actsAt k (log P setup txs)).flatMap (fun a => a.outs.filterMap (recordOut R)) ↔
      ∃ id, ev = showNat id ∧ took id a = true) :
    Rewards.FollowsWork (Rewards.stateAfter cfg p h0 (rewardsCalls R (log P setup txs))) k took := by
  have hperm := records_perm P setup txs hk (by rw [hR]; rfl : (setup R).isSome = true)
  rw [← rewards_records P setup txs k hR] at hperm
  refine Rewards.followsWork cfg p h0 _ k took (hperm.nodup_iff.mpr hnd) ?_
  intro ev a
  rw [hperm.mem_iff]
  exact hmem ev a

end Amp.Chain
