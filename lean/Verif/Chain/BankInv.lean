import Verif.Chain.BankLemmas

/-!
# Balances stay ahead of what contracts owe

The invariant of the chain with balances, and what single calls do to balances.
-/

namespace Amp.Chain

open Amp.Registry (Coin allOf)

variable {P : Params} {setup : Setup} {l : List Entry} {w : World} {B : Bank} {zero : Bool}

/-- log, storage and balances agree: a contract has at least what it received with messages and did not pay -/
structure BInv (P : Params) (setup : Setup) (l : List Entry) (w : World) (B : Bank) : Prop where
  inv : Inv P setup l w
  backed : ∀ a d, (setup a).isSome → inflow l a d ≤ B a d + outflow l a d

theorem isSome_world (hi : Inv P setup l w) (a : Addr) : (w a).isSome = (setup a).isSome := by
  rw [hi.world]; simp [worldOf]

theorem deliver_shape {b : Block} {p : Pending} {w' : World} {es : List Entry} {out : List Pending}
    (h : deliver P b w p = .ok (w', es, out)) :
    (w p.target).isSome ∧ (∃ x rest, es = ⟨p, x⟩ :: rest ∧ ∀ e ∈ rest, e.p.funds = [] ∧ e.act.sends = []) ∧
      ∀ q ∈ out, q.funds = [] := by
  have hsent : ∀ e : Entry, ∀ q ∈ e.sent, q.funds = [] := by
    intro e q hq
    obtain ⟨o, _, rfl⟩ := List.mem_map.mp hq
    rfl
  unfold deliver at h
  cases hw : w p.target with
  | none =>
    rw [hw] at h
    simp [call, hw] at h
  | some st =>
    refine ⟨rfl, ?_⟩
    rw [hw] at h
    cases st with
    | prover s sv kt =>
      simp only at h
      cases hm : p.msg with
      | prover m =>
        rw [hm] at h
        simp only at h
        cases hh : Prover.handle P.X s (proverEnv P w b s.config sv kt) m with
        | error e => rw [hh] at h; simp at h
        | ok y =>
          obtain ⟨s1, o⟩ := y
          rw [hh] at h
          simp only at h
          split at h
          · rename_i ms mc mr hcm
            cases hcp : call P b w p (some mr.data) with
            | error e => rw [hcp] at h; simp at h
            | ok y =>
              obtain ⟨s', a⟩ := y
              rw [hcp] at h
              simp only [Except.ok.injEq, Prod.mk.injEq] at h
              obtain ⟨rfl, rfl, rfl⟩ := h
              refine ⟨⟨_, _, rfl, ?_⟩, hsent _⟩
              intro e he
              simp only [List.mem_singleton] at he
              subst he
              exact ⟨rfl, rfl⟩
          · simp at h
      | _ => rw [hm] at h; simp at h
    | verifier s | gateway s | router s | nexus s | registry s | rewards s | multisig s =>
      simp only at h
      cases hc : call P b w p none with
      | error e => rw [hc] at h; simp at h
      | ok y =>
        obtain ⟨s', a⟩ := y
        rw [hc] at h
        simp only [Except.ok.injEq, Prod.mk.injEq] at h
        obtain ⟨rfl, rfl, rfl⟩ := h
        exact ⟨⟨_, _, rfl, by simp⟩, hsent _⟩

theorem payAll_nothing {es : List Entry} (h : ∀ e ∈ es, e.p.funds = [] ∧ e.act.sends = []) (B : Bank) :
    payAll zero B es = .ok B := by
  induction es with
  | nil => rfl
  | cons e t ih =>
    unfold payAll
    rw [(h e (List.mem_cons_self ..)).2]
    simp only [Bank.moveAll]
    exact ih (fun e he => h e (List.mem_cons_of_mem _ he))

theorem flows_nothing {es : List Entry} (h : ∀ e ∈ es, e.p.funds = [] ∧ e.act.sends = []) (a : Addr) (d : Str) :
    inflow es a d = 0 ∧ outflow es a d = 0 := by
  induction es with
  | nil => exact ⟨rfl, rfl⟩
  | cons e t ih =>
    have ih := ih (fun e he => h e (List.mem_cons_of_mem _ he))
    obtain ⟨h1, h2⟩ := h e (List.mem_cons_self ..)
    unfold inflow outflow at ih ⊢
    simp only [List.map_cons, List.sum_cons, h1, h2, ih.1, ih.2]
    simp [allOf]

/-- coins attached by others never take anything from contracts -/
theorem funds_moved {p : Pending} {B1 : Bank} (hi : Inv P setup l w)
    (hp : setup p.sender = none ∨ p.funds = [])
    (h : B.moveAll zero p.sender (p.funds.map (fun c => (p.target, c))) = .ok B1) (a : Addr) (d : Str)
    (ha : (setup a).isSome) : B1 a d = B a d + (if p.target = a then allOf d p.funds else 0) := by
  have h1 := moveAll_ok h a d
  have h2 : credited (p.funds.map (fun c => (p.target, c))) a d = if p.target = a then allOf d p.funds else 0 := by
    unfold credited allOf
    rw [List.map_map]
    by_cases ht : p.target = a
    · simp [ht, Function.comp_def]
    · simp [ht, Function.comp_def]
  have h3 : (p.funds.map (fun c => (p.target, c))).map Prod.snd = p.funds := by
    rw [List.map_map]; simp [Function.comp_def]
  rw [h2, h3] at h1
  have h4 : (if a = p.sender then allOf d p.funds else 0) = 0 := by
    split
    · rename_i he
      rcases hp with hp | hp
      · rw [← he] at hp; rw [hp] at ha; simp at ha
      · rw [hp]; rfl
    · rfl
  omega

/-- what a contract is about to pay is covered -/
theorem pay_enough {b : Block} {p : Pending} {w' : World} {x : Act} {rest : List Entry} {out : List Pending}
    {B1 : Bank} (hi : Inv P setup l w) (ho : Origin setup l p)
    (hd : deliver P b w p = .ok (w', ⟨p, x⟩ :: rest, out))
    (hrest : ∀ e ∈ rest, e.p.funds = [] ∧ e.act.sends = [])
    (hb : ∀ a d, (setup a).isSome →
      inflow l a d + (if p.target = a then allOf d p.funds else 0) ≤ B1 a d + outflow l a d) (d : Str) :
    allOf d (x.sends.map Prod.snd) ≤ B1 p.target d := by
  obtain ⟨hi', _⟩ := deliver_inv hi ho hd
  have ht := (deliver_shape hd).1
  rw [isSome_world hi] at ht
  have h1 := hi'.outflow_le ht d
  have h2 := hb p.target d ht
  rw [inflow_append, outflow_append] at h1
  have h3 := flows_nothing hrest p.target d
  unfold inflow outflow at h1 h2 h3
  rw [List.map_cons, List.sum_cons, List.map_cons, List.sum_cons, h3.1, h3.2] at h1
  simp only [if_true] at h1 h2
  omega

theorem payAll_first {p : Pending} {x : Act} {rest : List Entry} {B1 : Bank}
    (hrest : ∀ e ∈ rest, e.p.funds = [] ∧ e.act.sends = []) :
    payAll zero B1 (⟨p, x⟩ :: rest) = B1.moveAll zero p.target x.sends := by
  unfold payAll
  simp only
  split
  · rename_i e he; rw [he]
  · rename_i B' he; rw [he, payAll_nothing hrest]

theorem pay_ok {b : Block} {p : Pending} {w' : World} {es : List Entry} {out : List Pending} {B1 : Bank}
    (hi : Inv P setup l w) (ho : Origin setup l p) (hd : deliver P b w p = .ok (w', es, out))
    (hb : ∀ a d, (setup a).isSome →
      inflow l a d + (if p.target = a then allOf d p.funds else 0) ≤ B1 a d + outflow l a d) :
    payAll zero B1 es ≠ .error .insufficient ∧
    ∀ B2, payAll zero B1 es = .ok B2 → BInv P setup (l ++ es) w' B2 := by
  obtain ⟨hi', _⟩ := deliver_inv hi ho hd
  obtain ⟨_, ⟨x, rest, rfl, hrest⟩, _⟩ := deliver_shape hd
  have hin : ∀ a d, inflow (l ++ ⟨p, x⟩ :: rest) a d =
      inflow l a d + (if p.target = a then allOf d p.funds else 0) := by
    intro a d
    rw [inflow_append]
    have := (flows_nothing hrest a d).1
    unfold inflow at this ⊢
    rw [List.map_cons, List.sum_cons, this]
    rfl
  have hout : ∀ a d, outflow (l ++ ⟨p, x⟩ :: rest) a d =
      outflow l a d + (if p.target = a then allOf d (x.sends.map Prod.snd) else 0) := by
    intro a d
    rw [outflow_append]
    have := (flows_nothing hrest a d).2
    unfold outflow at this ⊢
    rw [List.map_cons, List.sum_cons, this]
    rfl
  rw [payAll_first hrest]
  refine ⟨moveAll_enough (pay_enough hi ho hd hrest hb), ?_⟩
  intro B2 h2
  refine ⟨hi', ?_⟩
  intro a d ha
  have h3 := moveAll_ok h2 a d
  have h4 := hb a d ha
  rw [hin, hout]
  by_cases hta : p.target = a
  · subst hta
    simp only [if_true] at h3 h4 ⊢
    omega
  · simp only [if_neg hta, if_neg (Ne.symm hta)] at h3 h4 ⊢
    omega

theorem deliverB_inv {b : Block} {p : Pending} (hi : BInv P setup l w B) (ho : Origin setup l p)
    (hp : setup p.sender = none ∨ p.funds = []) :
    deliverB P zero b w B p ≠ .error (.payment .insufficient) ∧
    ∀ w' B' es out, deliverB P zero b w B p = .ok (w', B', es, out) →
      BInv P setup (l ++ es) w' B' ∧ deliver P b w p = .ok (w', es, out) := by
  unfold deliverB
  split
  · simp
  · rename_i B1 h1
    have hfm := funds_moved hi.inv hp h1
    split
    · simp
    · rename_i w1 es1 out1 hd
      have hb : ∀ a d, (setup a).isSome →
          inflow l a d + (if p.target = a then allOf d p.funds else 0) ≤ B1 a d + outflow l a d := by
        intro a d ha
        have := hi.backed a d ha
        rw [hfm a d ha]
        omega
      obtain ⟨h2, h3⟩ := pay_ok (zero := zero) hi.inv ho hd hb
      split
      · rename_i e he
        refine ⟨?_, by simp⟩
        intro hc
        simp only [Except.error.injEq, Why.payment.injEq] at hc
        subst hc
        exact h2 he
      · rename_i B2 he
        refine ⟨by simp, ?_⟩
        intro w' B' es out hc
        simp only [Except.ok.injEq, Prod.mk.injEq] at hc
        obtain ⟨rfl, rfl, rfl, rfl⟩ := hc
        exact ⟨h3 _ he, hd⟩

theorem runB_inv {b : Block} {accepts : Addr → Bool} (n : Nat) :
    ∀ {l : List Entry} {w : World} {B : Bank} {ps : List Pending}, BInv P setup l w B →
      (∀ p ∈ ps, Origin setup l p ∧ (setup p.sender = none ∨ p.funds = [])) →
      runB P zero b accepts n w B ps ≠ .error (.payment .insufficient) ∧
      ∀ w' B' es, runB P zero b accepts n w B ps = .ok (w', B', es) →
        BInv P setup (l ++ es) w' B' ∧ run P b accepts n w ps = .ok (w', es) := by
  induction n with
  | zero =>
    intro l w B ps hi hp
    cases ps with
    | nil =>
      refine ⟨by simp [runB], ?_⟩
      intro w' B' es h
      simp only [runB, Except.ok.injEq, Prod.mk.injEq] at h
      obtain ⟨rfl, rfl, rfl⟩ := h
      exact ⟨by simpa using hi, rfl⟩
    | cons p t => simp [runB]
  | succ n ih =>
    intro l w B ps hi hp
    cases ps with
    | nil =>
      refine ⟨by simp [runB], ?_⟩
      intro w' B' es h
      simp only [runB, Except.ok.injEq, Prod.mk.injEq] at h
      obtain ⟨rfl, rfl, rfl⟩ := h
      exact ⟨by simpa using hi, rfl⟩
    | cons p t =>
      obtain ⟨hp1, hp2⟩ := hp p (List.mem_cons_self ..)
      have hpt : ∀ q ∈ t, Origin setup l q ∧ (setup q.sender = none ∨ q.funds = []) :=
        fun q hq => hp q (List.mem_cons_of_mem _ hq)
      rw [runB, run]
      split
      · rename_i hacc
        have hnone : setup p.target = none := by
          have := hacc.1
          rw [← Option.not_isSome, isSome_world hi.inv] at this
          simpa using this
        split
        · simp
        · rename_i B1 h1
          have hfm := funds_moved hi.inv hp2 h1
          refine ih ⟨hi.inv, ?_⟩ hpt
          intro a d ha
          have h2 := hi.backed a d ha
          have h3 := hfm a d ha
          omega
      · obtain ⟨h1, h2⟩ := deliverB_inv (zero := zero) (b := b) hi hp1 hp2
        cases hd : deliverB P zero b w B p with
        | error e =>
          rw [hd] at h1
          refine ⟨?_, by simp⟩
          simpa using h1
        | ok y =>
          obtain ⟨w1, B1, es1, out⟩ := y
          obtain ⟨hi1, hd1⟩ := h2 _ _ _ _ hd
          obtain ⟨_, ho1⟩ := deliver_inv hi.inv hp1 hd1
          obtain ⟨_, _, hf1⟩ := deliver_shape hd1
          simp only [hd1]
          obtain ⟨h3, h4⟩ := ih hi1 (ps := out ++ t) (by
            intro q hq
            rcases List.mem_append.mp hq with hq | hq
            · exact ⟨ho1 q hq, .inr (hf1 q hq)⟩
            · exact ⟨(hpt q hq).1.mono, (hpt q hq).2⟩)
          cases hr : runB P zero b accepts n w1 B1 (out ++ t) with
          | error e =>
            rw [hr] at h3
            refine ⟨?_, by simp⟩
            simpa using h3
          | ok z =>
            obtain ⟨w2, B2, es2⟩ := z
            obtain ⟨hi2, hr2⟩ := h4 _ _ _ hr
            refine ⟨by simp, ?_⟩
            intro w' B' es h
            simp only [Except.ok.injEq, Prod.mk.injEq] at h
            obtain ⟨rfl, rfl, rfl⟩ := h
            rw [hr2, ← List.append_assoc]
            exact ⟨hi2, rfl⟩

theorem execB_inv {tx : Tx} (hi : BInv P setup l w B) :
    execB P zero w B tx ≠ .error (.payment .insufficient) ∧
    ∀ w' B' es, execB P zero w B tx = .ok (w', B', es) →
      BInv P setup (l ++ es) w' B' ∧ exec P w tx = .ok (w', es) := by
  unfold execB exec
  split
  · simp
  · rename_i hs
    have hnone : setup tx.sender = none := by
      rw [isSome_world hi.inv] at hs
      simpa using hs
    refine runB_inv _ hi ?_
    intro p hp
    obtain ⟨m, _, rfl⟩ := List.mem_map.mp hp
    exact ⟨.inl hnone, .inl hnone⟩

theorem execOp_inv {op : Op} {w' : World} {B' : Bank} {es : List Entry} (hi : BInv P setup l w B)
    (h : execOp P zero (w, B) op = .ok ((w', B'), es)) : BInv P setup (l ++ es) w' B' := by
  unfold execOp at h
  cases op with
  | tx t =>
    simp only at h
    split at h
    · simp at h
    · rename_i w1 B1 es1 hx
      simp only [Except.ok.injEq, Prod.mk.injEq] at h
      obtain ⟨⟨rfl, rfl⟩, rfl⟩ := h
      exact ((execB_inv (zero := zero) hi).2 _ _ _ hx).1
  | transfer src dst c =>
    simp only at h
    split at h
    · simp at h
    · rename_i hs
      split at h
      · simp at h
      · rename_i B1 hm
        simp only [Except.ok.injEq, Prod.mk.injEq] at h
        obtain ⟨⟨rfl, rfl⟩, rfl⟩ := h
        rw [List.append_nil]
        refine ⟨hi.inv, ?_⟩
        intro a d ha
        have h1 := move_ok hm a d
        have h2 := hi.backed a d ha
        have h3 : a ≠ src := by
          rintro rfl
          rw [isSome_world hi.inv] at hs
          exact hs ha
        simp only [h3, false_and, if_false] at h1
        omega
  | mint dst c =>
    simp only [Except.ok.injEq, Prod.mk.injEq] at h
    obtain ⟨⟨rfl, rfl⟩, rfl⟩ := h
    rw [List.append_nil]
    refine ⟨hi.inv, ?_⟩
    intro a d ha
    have h2 := hi.backed a d ha
    unfold Bank.add
    split <;> omega
  | burn src c =>
    simp only at h
    split at h
    · simp at h
    · rename_i hs
      split at h
      · simp at h
      · simp only [Except.ok.injEq, Prod.mk.injEq] at h
        obtain ⟨⟨rfl, rfl⟩, rfl⟩ := h
        rw [List.append_nil]
        refine ⟨hi.inv, ?_⟩
        intro a d ha
        have h2 := hi.backed a d ha
        have h3 : a ≠ src := by
          rintro rfl
          rw [isSome_world hi.inv] at hs
          exact hs ha
        unfold Bank.sub
        simp only [h3, false_and, if_false]
        exact h2

theorem banked_inv (P : Params) (zero : Bool) (setup : Setup) (B : Bank) (ops : List Op) :
    BInv P setup (bankedLog P zero setup B ops) (bankedAfter P zero setup B ops).1
      (bankedAfter P zero setup B ops).2 := by
  refine outs_inv (execOp P zero) (P := fun lg s => BInv P setup (lg.flatMap Prod.snd) s.1 s.2)
    (genesis setup, B) ⟨Inv.genesis P setup, ?_⟩ ?_ ops
  · intro a d _
    simp [inflow, outflow]
  · intro lg s op s' es hi h
    rw [List.flatMap_append]
    simp only [List.flatMap_cons, List.flatMap_nil, List.append_nil]
    exact execOp_inv hi h

/-! ### Which payments are of nothing -/

theorem mergeRewards_pos {xs : List (Addr × Nat)} : ∀ {acc m : OMap Addr Nat},
    Rewards.mergeRewards acc xs = .ok m → (∀ y ∈ acc, 0 < y.2) → (∀ y ∈ xs, 0 < y.2) → ∀ y ∈ m, 0 < y.2 := by
  induction xs with
  | nil =>
    intro acc m h ha _
    simp only [Rewards.mergeRewards, Except.ok.injEq] at h
    subst h; exact ha
  | cons x t ih =>
    obtain ⟨a, v⟩ := x
    intro acc m h ha hx
    have hv : 0 < v := hx (a, v) (List.mem_cons_self ..)
    have ht : ∀ y ∈ t, 0 < y.2 := fun y hy => hx y (List.mem_cons_of_mem _ hy)
    unfold Rewards.mergeRewards at h
    split at h
    · refine ih h ?_ ht
      intro y hy
      rcases OMap.mem_set hy with rfl | hy
      · exact hv
      · exact ha y hy
    · split at h
      · simp at h
      · refine ih h ?_ ht
        intro y hy
        rcases OMap.mem_set hy with rfl | hy
        · show 0 < _ + v; omega
        · exact ha y hy

theorem rewardsByWorker_pos (t : Rewards.Tally) : ∀ y ∈ Rewards.rewardsByWorker t, 0 < y.2 := by
  intro y hy
  unfold Rewards.rewardsByWorker at hy
  simp only at hy
  generalize (if (Rewards.workersToReward t).length = 0 then 0
    else t.params.rewards / (Rewards.workersToReward t).length) = v at hy
  split at hy
  · simp at hy
  · obtain ⟨_, _, rfl⟩ := List.mem_map.mp hy
    show 0 < v; omega

theorem cumulate_pos {s : Rewards.State} {k : Addr} (n : Nat) : ∀ {acc m : OMap Addr Nat} {fr : Nat},
    Rewards.cumulate s k acc fr n = .ok m → (∀ y ∈ acc, 0 < y.2) → ∀ y ∈ m, 0 < y.2 := by
  induction n with
  | zero =>
    intro acc m fr h ha
    simp only [Rewards.cumulate, Except.ok.injEq] at h
    subst h; exact ha
  | succ n ih =>
    intro acc m fr h ha
    unfold Rewards.cumulate at h
    split at h
    · exact ih h ha
    · split at h
      · simp at h
      · rename_i t _ _ acc' hm
        exact ih h (mergeRewards_pos hm ha (rewardsByWorker_pos t))

/-- rewards contracts never pay nothing -/
theorem rewards_pos {s s' : Rewards.State} (hi : Rewards.Inv s) {c : Rewards.Call} {r : Rewards.Resp}
    (hx : Rewards.exec s c = .ok (s', r)) : ∀ y ∈ r.sends, y.2.2 ≠ 0 := by
  by_cases hm : ∃ k n, c.msg = .distributeRewards k n
  · obtain ⟨k, n, hm⟩ := hm
    simp only [Rewards.exec, hm] at hx
    obtain ⟨cur, m, upto, _, _, _, _, _, h6, _, h8, _⟩ := (Rewards.distribute_ok hi).mp hx
    rw [h8]
    intro y hy
    obtain ⟨z, hz, rfl⟩ := List.mem_map.mp hy
    have := cumulate_pos _ h6 (by simp) z hz
    show z.2 ≠ 0
    omega
  · have := ((Rewards.step_frame hi hx).2.2.2.1 (fun k n h => hm ⟨k, n, h⟩)).2
    rw [this]
    simp

/-- a payment of a registry is a claimed stake -/
theorem registry_sends {s s' : Registry.State} {c : Registry.Call} {r : Registry.Resp}
    (hx : Registry.exec s c = .ok (s', r)) (hs : r.sends ≠ []) : ∃ n, c.msg = .claimStake n := by
  unfold Registry.exec at hx
  cases hm : c.msg with
  | claimStake n => exact ⟨n, rfl⟩
  | registerService n sv =>
    simp only [hm] at hx
    exfalso; apply hs
    split at hx
    · simp at hx
    · unfold Registry.registerService at hx
      split at hx
      · simp only [Except.ok.injEq, Prod.mk.injEq] at hx
        rw [← hx.2]
      · simp at hx
  | authorizeWorkers ws n | unauthorizeWorkers ws n =>
    simp only [hm] at hx
    exfalso; apply hs
    split at hx
    · simp at hx
    · unfold Registry.updateAuth at hx
      split at hx
      · simp at hx
      · simp only [Except.ok.injEq, Prod.mk.injEq] at hx
        rw [← hx.2]
  | declareChainSupport n cs =>
    simp only [hm] at hx
    exfalso; apply hs
    unfold Registry.declareChains at hx
    repeat' split at hx
    all_goals first
      | (simp at hx; done)
      | (simp only [Except.ok.injEq, Prod.mk.injEq] at hx; rw [← hx.2])
  | bondWorker n =>
    simp only [hm] at hx
    exfalso; apply hs
    unfold Registry.bondWorker at hx
    repeat' split at hx
    all_goals first
      | (simp at hx; done)
      | (simp only [Except.ok.injEq, Prod.mk.injEq] at hx; rw [← hx.2])
  | unbondWorker n =>
    simp only [hm] at hx
    exfalso; apply hs
    unfold Registry.unbondWorker at hx
    repeat' split at hx
    all_goals first
      | (simp at hx; done)
      | (simp only [Except.ok.injEq, Prod.mk.injEq] at hx; rw [← hx.2])

theorem moveAll_zero {src : Addr} {xs : List (Addr × Coin)} : ∀ {B : Bank},
    B.moveAll zero src xs = .error .zeroAmount → zero = false ∧ ∃ y ∈ xs, y.2.2 = 0 := by
  induction xs with
  | nil => intro B h; simp [Bank.moveAll] at h
  | cons y t ih =>
    obtain ⟨dst, c⟩ := y
    intro B h
    unfold Bank.moveAll at h
    split at h
    · rename_i e he
      simp only [Except.error.injEq] at h
      subst h
      unfold Bank.move at he
      split at he
      · rename_i h0
        cases zero with
        | true => simp at he
        | false => exact ⟨rfl, _, List.mem_cons_self .., h0⟩
      · split at he <;> simp at he
    · obtain ⟨h1, y, hy, h2⟩ := ih h
      exact ⟨h1, y, List.mem_cons_of_mem _ hy, h2⟩

/-- a delivery that fails when the contract pays is a claim of nothing -/
theorem deliverB_why {b : Block} {p : Pending} {e : MoveErr} (hi : BInv P setup l w B) (ho : Origin setup l p)
    (hp : setup p.sender = none ∨ p.funds = []) (h : deliverB P zero b w B p = .error (.payment e)) :
    e = .zeroAmount ∧ zero = false ∧ ∃ n, p.msg = .registry (.claimStake n) := by
  have he : e = .zeroAmount := by
    cases e with
    | zeroAmount => rfl
    | insufficient => exact absurd h (deliverB_inv (zero := zero) hi ho hp).1
  subst he
  unfold deliverB at h
  split at h
  · simp at h
  · rename_i B1 h1
    split at h
    · simp at h
    · rename_i w1 es out hd
      split at h
      · rename_i e he
        simp only [Except.error.injEq, Why.payment.injEq] at h
        subst h
        obtain ⟨hi', _⟩ := deliver_inv hi.inv ho hd
        obtain ⟨ht, ⟨x, rest, rfl, hrest⟩, _⟩ := deliver_shape hd
        rw [isSome_world hi.inv] at ht
        rw [payAll_first hrest] at he
        obtain ⟨hz, y, hy, hy0⟩ := moveAll_zero he
        refine ⟨rfl, hz, ?_⟩
        obtain ⟨k, hk⟩ := Option.isSome_iff_exists.mp ht
        have hne : x.sends ≠ [] := fun h0 => by rw [h0] at hy; simp at hy
        have hm := hi'.acts _ _ hk
        have hx : x ∈ actsAt p.target (l ++ ⟨p, x⟩ :: rest) := actsAt_mem (e := ⟨p, x⟩) (by simp)
        cases k with
        | registry gov =>
          obtain ⟨m, t, r, s', h3, h4, h5⟩ := hi'.registry_call (e := ⟨p, x⟩) rfl hk
          simp only at h3 h4 h5
          rw [h4] at hne
          obtain ⟨n, hn⟩ := registry_sends h5 hne
          simp only at hn
          exact ⟨n, by rw [h3, hn]⟩
        | rewards cfg q h =>
          obtain ⟨m, t, r, s', h3, h4, h5⟩ := hi'.rewards_call (e := ⟨p, x⟩) rfl hk
          simp only at h3 h4 h5
          rw [h4] at hy
          exact absurd hy0 (rewards_pos (Rewards.inv_reachable ..) h5 y hy)
        | verifier _ | gateway _ | router _ | nexus _ | multisig _ | prover _ _ _ =>
          exfalso
          simp only [Matches] at hm
          rw [hm] at hx
          obtain ⟨z, _, hz⟩ := List.mem_map.mp hx
          rw [← hz] at hne
          exact hne rfl
      · simp at h

theorem outs_not_registry (x : Act) : ∀ o ∈ x.outs, ∀ m, o.2 ≠ .registry m := by
  intro o ho m
  cases x with
  | verifier c r | router c r | nexus c r | multisig c r =>
    obtain ⟨y, _, rfl⟩ := List.mem_map.mp ho; simp
  | gateway c r =>
    obtain ⟨y, _, rfl⟩ := List.mem_map.mp ho
    cases y <;> simp
  | registry c r | rewards c r => simp [Act.outs] at ho
  | prover a c r =>
    simp only [Act.outs, List.mem_singleton] at ho
    subst ho; simp

theorem deliver_out {b : Block} {p : Pending} {w' : World} {es : List Entry} {out : List Pending}
    (h : deliver P b w p = .ok (w', es, out)) : ∀ q ∈ out, ∀ m, q.msg ≠ .registry m := by
  have hsent : ∀ e : Entry, ∀ q ∈ e.sent, ∀ m, q.msg ≠ .registry m := by
    intro e q hq m
    obtain ⟨o, ho, rfl⟩ := List.mem_map.mp hq
    exact outs_not_registry e.act o ho m
  unfold deliver at h
  split at h
  · split at h
    · split at h
      · simp at h
      · simp only at h
        split at h
        · split at h
          · simp at h
          · simp only [Except.ok.injEq, Prod.mk.injEq] at h
            rw [← h.2.2]; exact hsent _
        · simp at h
    · simp at h
  · split at h
    · simp at h
    · simp only [Except.ok.injEq, Prod.mk.injEq] at h
      rw [← h.2.2]; exact hsent _

theorem runB_why {b : Block} {accepts : Addr → Bool} {e : MoveErr} (n : Nat) :
    ∀ {l : List Entry} {w : World} {B : Bank} {ps : List Pending}, BInv P setup l w B →
      (∀ p ∈ ps, Origin setup l p ∧ (setup p.sender = none ∨ p.funds = [])) →
      runB P zero b accepts n w B ps = .error (.payment e) →
      e = .zeroAmount ∧ zero = false ∧ ∃ p ∈ ps, ∃ n, p.msg = .registry (.claimStake n) := by
  induction n with
  | zero =>
    intro l w B ps hi hp h
    cases ps with
    | nil => simp [runB] at h
    | cons p t => simp [runB] at h
  | succ n ih =>
    intro l w B ps hi hp h
    cases ps with
    | nil => simp [runB] at h
    | cons p t =>
      obtain ⟨hp1, hp2⟩ := hp p (List.mem_cons_self ..)
      have hpt : ∀ q ∈ t, Origin setup l q ∧ (setup q.sender = none ∨ q.funds = []) :=
        fun q hq => hp q (List.mem_cons_of_mem _ hq)
      rw [runB] at h
      split at h
      · split at h
        · simp at h
        · rename_i B1 h1
          have hfm := funds_moved hi.inv hp2 h1
          have hi1 : BInv P setup l w B1 := by
            refine ⟨hi.inv, ?_⟩
            intro a d ha
            have h2 := hi.backed a d ha
            have h3 := hfm a d ha
            omega
          obtain ⟨h4, h5, q, hq, m, hm⟩ := ih hi1 hpt h
          exact ⟨h4, h5, q, List.mem_cons_of_mem _ hq, m, hm⟩
      · cases hd : deliverB P zero b w B p with
        | error x =>
          rw [hd] at h
          simp only [Except.error.injEq] at h
          subst h
          obtain ⟨h1, h2, m, hm⟩ := deliverB_why hi hp1 hp2 hd
          exact ⟨h1, h2, p, List.mem_cons_self .., m, hm⟩
        | ok y =>
          obtain ⟨w1, B1, es1, out⟩ := y
          rw [hd] at h
          simp only at h
          obtain ⟨hi1, hd1⟩ := (deliverB_inv (zero := zero) (b := b) hi hp1 hp2).2 _ _ _ _ hd
          obtain ⟨_, ho1⟩ := deliver_inv hi.inv hp1 hd1
          obtain ⟨_, _, hf1⟩ := deliver_shape hd1
          cases hr : runB P zero b accepts n w1 B1 (out ++ t) with
          | ok z => rw [hr] at h; simp at h
          | error x =>
            rw [hr] at h
            simp only [Except.error.injEq] at h
            subst h
            obtain ⟨h1, h2, q, hq, m, hm⟩ := ih hi1 (ps := out ++ t) (by
              intro q hq
              rcases List.mem_append.mp hq with hq | hq
              · exact ⟨ho1 q hq, .inr (hf1 q hq)⟩
              · exact ⟨(hpt q hq).1.mono, (hpt q hq).2⟩) hr
            rcases List.mem_append.mp hq with hq | hq
            · exact absurd hm (deliver_out hd1 q hq _)
            · exact ⟨h1, h2, q, List.mem_cons_of_mem _ hq, m, hm⟩

/-! ### Single messages -/

theorem execB_one {tx : Tx} {a : Addr} {m : Msg} {w' : World} {x : Act} (hi : BInv P setup l w B)
    (hs : setup tx.sender = none) (hm : tx.msgs = [(a, [], m)]) (hg : 1 ≤ tx.gas)
    (hd : deliver P tx.block w ⟨tx.sender, a, [], m⟩ = .ok (w', [⟨⟨tx.sender, a, [], m⟩, x⟩], [])) :
    (∀ d, allOf d (x.sends.map Prod.snd) ≤ B a d) ∧
    execB P zero w B tx =
      match B.moveAll zero a x.sends with
      | .error e => .error (.payment e)
      | .ok B' => .ok (w', B', [⟨⟨tx.sender, a, [], m⟩, x⟩]) := by
  have ha := (deliver_shape hd).1
  simp only at ha
  have hn : w tx.sender = none := by
    have := isSome_world hi.inv tx.sender
    rw [hs] at this
    simpa using this
  refine ⟨?_, ?_⟩
  · refine pay_enough hi.inv (.inl hs) hd (by simp) ?_
    intro b d hb
    have := hi.backed b d hb
    simpa [allOf] using this
  · obtain ⟨g, hg⟩ : ∃ g, tx.gas = g + 1 := ⟨tx.gas - 1, by omega⟩
    unfold execB
    rw [hn, hm, hg]
    simp only [Option.isSome_none, Bool.false_eq_true, if_false, List.map_cons, List.map_nil]
    rw [runB]
    have h0 : ¬((w a).isNone = true ∧ tx.accepts a = true) := by
      rintro ⟨h1, _⟩
      rw [Option.isNone_iff_eq_none] at h1
      rw [h1] at ha; simp at ha
    simp only [h0, if_false]
    unfold deliverB
    simp only [List.map_nil, Bank.moveAll, hd, payAll_first (rest := []) (by simp), List.append_nil]
    cases B.moveAll zero a x.sends with
    | error e => rfl
    | ok B' => simp only [runB, List.append_nil]

end Amp.Chain
