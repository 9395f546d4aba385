import Verif.Chain.Bank
import Verif.Chain.Lemmas
import Verif.Registry.Props
import Verif.Rewards.Props

/-! # Lemmas about balances -/

namespace Amp.Chain

open Amp.Registry (Coin allOf)

variable {P : Params} {setup : Setup} {l l₁ l₂ : List Entry} {e : Entry} {w : World} {a : Addr}

/-- the calls of a registry in the log -/
abbrev registryCalls (a : Addr) (l : List Entry) : List Registry.Call := (actsAt a l).filterMap Act.registryCall?
/-- the calls of a rewards contract in the log -/
abbrev rewardsCalls (a : Addr) (l : List Entry) : List Rewards.Call := (actsAt a l).filterMap Act.rewardsCall?

/-! ### Movements -/

/-- what a list of transfers brings `x` in denomination `d` -/
def credited (l : List (Addr × Coin)) (x : Addr) (d : Str) : Nat :=
  (l.map (fun y => if y.1 = x ∧ y.2.1 = d then y.2.2 else 0)).sum

theorem allOf_cons (d : Str) (c : Coin) (l : List Coin) :
    allOf d (c :: l) = (if c.1 = d then c.2 else 0) + allOf d l := by
  simp [allOf]

theorem credited_cons (y : Addr × Coin) (l : List (Addr × Coin)) (x : Addr) (d : Str) :
    credited (y :: l) x d = (if y.1 = x ∧ y.2.1 = d then y.2.2 else 0) + credited l x d := by
  simp [credited]

theorem move_ok {zero : Bool} {B B' : Bank} {src dst : Addr} {c : Coin} (h : B.move zero src dst c = .ok B')
    (x : Addr) (d : Str) :
    B' x d + (if x = src ∧ c.1 = d then c.2 else 0) = B x d + (if dst = x ∧ c.1 = d then c.2 else 0) := by
  unfold Bank.move at h
  split at h
  · rename_i h0
    split at h
    · simp only [Except.ok.injEq] at h
      subst h
      simp [h0]
    · simp at h
  · split at h
    · simp at h
    · rename_i hlt
      simp only [Except.ok.injEq] at h
      subst h
      simp only [Bank.add, Bank.sub]
      by_cases hd : d = c.1
      · subst hd
        by_cases h1 : x = src
        · subst h1
          by_cases h2 : x = dst
          · subst h2; simp; omega
          · simp [h2, Ne.symm h2]; omega
        · by_cases h2 : x = dst
          · subst h2; simp [h1]
          · simp [h1, h2, Ne.symm h2]
      · simp [hd, Ne.symm hd]

theorem moveAll_ok {zero : Bool} {src : Addr} {l : List (Addr × Coin)} : ∀ {B B' : Bank},
    B.moveAll zero src l = .ok B' → ∀ (x : Addr) (d : Str),
      B' x d + (if x = src then allOf d (l.map Prod.snd) else 0) = B x d + credited l x d := by
  induction l with
  | nil =>
    intro B B' h x d
    simp only [Bank.moveAll, Except.ok.injEq] at h
    subst h
    simp [allOf, credited]
  | cons y t ih =>
    intro B B' h x d
    obtain ⟨dst, c⟩ := y
    unfold Bank.moveAll at h
    split at h
    · simp at h
    · rename_i B1 h1
      have e1 := move_ok h1 x d
      have e2 := ih h x d
      rw [List.map_cons, allOf_cons, credited_cons]
      simp only
      by_cases hx : x = src
      · simp only [hx, if_true, true_and] at e1 e2 ⊢
        omega
      · simp only [hx, if_false, false_and] at e1 e2 ⊢
        omega

/-- transfers succeed if there is enough -/
theorem moveAll_enough {zero : Bool} {src : Addr} {l : List (Addr × Coin)} : ∀ {B : Bank},
    (∀ d, allOf d (l.map Prod.snd) ≤ B src d) → B.moveAll zero src l ≠ .error .insufficient := by
  induction l with
  | nil => intro B _ h; simp [Bank.moveAll] at h
  | cons y t ih =>
    intro B hB h
    obtain ⟨dst, c⟩ := y
    unfold Bank.moveAll at h
    split at h
    · rename_i e he
      simp only [Except.error.injEq] at h
      subst h
      unfold Bank.move at he
      split at he
      · split at he <;> simp at he
      · split at he
        · rename_i hlt
          have := hB c.1
          rw [List.map_cons, allOf_cons] at this
          simp at this
          omega
        · simp at he
    · rename_i B1 h1
      refine ih ?_ h
      intro d
      have e1 := move_ok h1 src d
      have e2 := hB d
      rw [List.map_cons, allOf_cons] at e2
      simp only [true_and] at e1 e2
      omega

/-- and if there are no zero amounts, or these are let pass -/
theorem moveAll_succeeds {zero : Bool} {src : Addr} {l : List (Addr × Coin)} : ∀ {B : Bank},
    (∀ d, allOf d (l.map Prod.snd) ≤ B src d) → (zero = true ∨ ∀ y ∈ l, y.2.2 ≠ 0) →
      ∃ B', B.moveAll zero src l = .ok B' := by
  intro B hB hz
  cases h : B.moveAll zero src l with
  | ok B' => exact ⟨B', rfl⟩
  | error x =>
    exfalso
    cases x with
    | insufficient => exact moveAll_enough hB h
    | zeroAmount =>
      clear hB
      induction l generalizing B with
      | nil => simp [Bank.moveAll] at h
      | cons y t ih =>
        obtain ⟨dst, c⟩ := y
        unfold Bank.moveAll at h
        split at h
        · rename_i e he
          simp only [Except.error.injEq] at h
          subst h
          unfold Bank.move at he
          split at he
          · rename_i h0
            rcases hz with rfl | hz
            · simp at he
            · exact hz (dst, c) (List.mem_cons_self ..) h0
          · split at he <;> simp at he
        · refine ih ?_ h
          rcases hz with hz | hz
          · exact .inl hz
          · exact .inr (fun y hy => hz y (List.mem_cons_of_mem _ hy))

/-! ### What contracts receive and send -/

/-- coins attached to the messages delivered to `a` -/
def inflow (l : List Entry) (a : Addr) (d : Str) : Nat :=
  (l.map (fun e => if e.p.target = a then allOf d e.p.funds else 0)).sum

/-- coins paid by the responses of `a` -/
def outflow (l : List Entry) (a : Addr) (d : Str) : Nat :=
  (l.map (fun e => if e.p.target = a then allOf d (e.act.sends.map Prod.snd) else 0)).sum

theorem inflow_append (l l' : List Entry) (a : Addr) (d : Str) :
    inflow (l ++ l') a d = inflow l a d + inflow l' a d := by simp [inflow]

theorem outflow_append (l l' : List Entry) (a : Addr) (d : Str) :
    outflow (l ++ l') a d = outflow l a d + outflow l' a d := by simp [outflow]

theorem outflow_acts (l : List Entry) (a : Addr) (d : Str) :
    outflow l a d = ((actsAt a l).map (fun x => allOf d (x.sends.map Prod.snd))).sum := by
  induction l with
  | nil => rfl
  | cons e t ih =>
    unfold outflow at ih ⊢
    rw [List.map_cons, List.sum_cons, ih]
    unfold actsAt
    by_cases h : e.p.target = a
    · simp [h]
    · simp [h]

/-- the coins that an act says it got -/
def Act.funds : Act → List Coin
  | .registry c _ => c.funds
  | .rewards c _ => c.funds
  | _ => []

theorem inflow_acts (l : List Entry) (a : Addr) (d : Str)
    (h : ∀ e ∈ l, e.p.target = a → e.act.funds = e.p.funds) :
    inflow l a d = ((actsAt a l).map (fun x => allOf d x.funds)).sum := by
  induction l with
  | nil => rfl
  | cons e t ih =>
    have ih := ih (fun e he => h e (List.mem_cons_of_mem _ he))
    have h0 := h e (List.mem_cons_self ..)
    unfold inflow at ih ⊢
    rw [List.map_cons, List.sum_cons, ih]
    unfold actsAt
    by_cases hh : e.p.target = a
    · simp [hh, h0 hh]
    · simp [hh]

/-! ### Registry -/

theorem Inv.registry_state (hi : Inv P setup l w) {gov : Addr} (hk : setup a = some (.registry gov)) :
    w a = some (.registry (Registry.stateAfter gov (registryCalls a l))) := by
  rw [hi.world]
  simp [worldOf, hk, replay]

theorem Inv.registry_call (hi : Inv P setup l w) (hl : l = l₁ ++ e :: l₂) {gov : Addr}
    (hk : setup e.p.target = some (.registry gov)) :
    ∃ m t r s', e.p.msg = .registry m ∧ e.act = .registry ⟨e.p.sender, e.p.funds, t, m⟩ r ∧
      Registry.exec (Registry.stateAfter gov (registryCalls e.p.target l₁)) ⟨e.p.sender, e.p.funds, t, m⟩ =
        .ok (s', r) := by
  obtain ⟨_, b, reply, s', hc⟩ := hi.genuine l₁ e l₂ hl
  have hw := (hi.prefix hl).registry_state hk
  unfold call at hc
  rw [hw] at hc
  simp only at hc
  cases hm : e.p.msg with
  | registry m =>
    rw [hm] at hc
    simp only at hc
    split at hc
    · simp at hc
    · rename_i s1 r1 hx
      simp only [Except.ok.injEq, Prod.mk.injEq] at hc
      exact ⟨m, b.time, r1, s1, rfl, hc.2.symm, hx⟩
  | _ => rw [hm] at hc; simp at hc

theorem Inv.registry_owed (hi : Inv P setup l w) {gov : Addr} (hk : setup a = some (.registry gov)) (d : Str) :
    Registry.owed (Registry.stateAfter gov (registryCalls a l)) d + outflow l a d ≤ inflow l a d := by
  have h := Registry.C32_solvent gov (registryCalls a l) d
  have hm := hi.acts _ _ hk
  simp only [Matches] at hm
  rw [outflow_acts, inflow_acts]
  · rw [show Registry.history gov (registryCalls a l) = outs Registry.exec (Registry.init gov) (registryCalls a l) from rfl] at h
    unfold Registry.sent Registry.received at h
    rw [hm, List.map_map, List.map_map]
    exact h
  · intro e he ht
    obtain ⟨l1, l2, rfl⟩ := List.append_of_mem he
    subst ht
    obtain ⟨m, t, r, s', _, h2, _⟩ := hi.registry_call rfl hk
    rw [h2]
    rfl

/-! ### Rewards -/

theorem Inv.rewards_state (hi : Inv P setup l w) {cfg : Rewards.Config} {p : Rewards.Params} {h : Nat}
    (hk : setup a = some (.rewards cfg p h)) :
    w a = some (.rewards (Rewards.stateAfter cfg p h (rewardsCalls a l))) := by
  rw [hi.world]
  simp [worldOf, hk, replay]

theorem Inv.rewards_call (hi : Inv P setup l w) (hl : l = l₁ ++ e :: l₂) {cfg : Rewards.Config}
    {p : Rewards.Params} {h : Nat} (hk : setup e.p.target = some (.rewards cfg p h)) :
    ∃ m t r s', e.p.msg = .rewards m ∧ e.act = .rewards ⟨e.p.sender, e.p.funds, t, m⟩ r ∧
      Rewards.exec (Rewards.stateAfter cfg p h (rewardsCalls e.p.target l₁)) ⟨e.p.sender, e.p.funds, t, m⟩ =
        .ok (s', r) := by
  obtain ⟨_, b, reply, s', hc⟩ := hi.genuine l₁ e l₂ hl
  have hw := (hi.prefix hl).rewards_state hk
  unfold call at hc
  rw [hw] at hc
  simp only at hc
  cases hm : e.p.msg with
  | rewards m =>
    rw [hm] at hc
    simp only at hc
    split at hc
    · simp at hc
    · rename_i s1 r1 hx
      simp only [Except.ok.injEq, Prod.mk.injEq] at hc
      exact ⟨m, b.height, r1, s1, rfl, hc.2.symm, hx⟩
  | _ => rw [hm] at hc; simp at hc

theorem Inv.rewards_pools (hi : Inv P setup l w) {cfg : Rewards.Config} {p : Rewards.Params} {h : Nat}
    (hk : setup a = some (.rewards cfg p h)) :
    Rewards.totalPools (Rewards.stateAfter cfg p h (rewardsCalls a l)) + outflow l a cfg.denom ≤
      inflow l a cfg.denom := by
  have hs := Rewards.C39_solvent cfg p h (rewardsCalls a l)
  have hm := hi.acts _ _ hk
  simp only [Matches] at hm
  rw [outflow_acts, inflow_acts]
  · unfold Rewards.sent Rewards.received at hs
    rw [hm, outs_eq_steps]
    simp only [List.map_map]
    exact hs
  · intro e he ht
    obtain ⟨l1, l2, rfl⟩ := List.append_of_mem he
    subst ht
    obtain ⟨m, t, r, s', _, h2, _⟩ := hi.rewards_call rfl hk
    rw [h2]
    rfl

theorem rewards_sends {s s' : Rewards.State} {c : Rewards.Call} {r : Rewards.Resp}
    (hx : Rewards.exec s c = .ok (s', r)) : ∀ y ∈ r.sends, y.2.1 = s.config.denom := by
  unfold Rewards.exec at hx
  split at hx
  · unfold Rewards.recordParticipation at hx
    split at hx
    · simp at hx
    · split at hx
      simp only at hx
      split at hx
      · simp at hx
      · split at hx
        · simp at hx
        · simp only [Except.ok.injEq, Prod.mk.injEq] at hx
          rw [← hx.2]; simp
  · unfold Rewards.addRewards at hx
    split at hx
    · simp at hx
    · split at hx
      · simp at hx
      · split at hx
        · simp at hx
        · split at hx
          · simp at hx
          · simp only [Except.ok.injEq, Prod.mk.injEq] at hx
            rw [← hx.2]; simp
  · unfold Rewards.distribute at hx
    simp only at hx
    split at hx
    · simp at hx
    · split at hx
      · simp at hx
      · split at hx
        · simp at hx
        · split at hx
          · simp at hx
          · split at hx
            · simp at hx
            · simp only [Except.ok.injEq, Prod.mk.injEq] at hx
              rw [← hx.2]
              intro y hy
              obtain ⟨z, _, rfl⟩ := List.mem_map.mp hy
              rfl
  · unfold Rewards.updateParams at hx
    split at hx
    · simp at hx
    · split at hx
      · simp at hx
      · split at hx
        · simp at hx
        · split at hx
          · split at hx
            · simp at hx
            · simp only [Except.ok.injEq, Prod.mk.injEq] at hx
              rw [← hx.2]; simp
          · simp only [Except.ok.injEq, Prod.mk.injEq] at hx
            rw [← hx.2]; simp

theorem rewards_config (cfg : Rewards.Config) (p : Rewards.Params) (h : Nat) (cs : List Rewards.Call) :
    (Rewards.stateAfter cfg p h cs).config = cfg := by
  refine (runCalls_inv Rewards.exec (P := fun s => Rewards.Inv s ∧ s.config = cfg) ?_
    (Rewards.init cfg p h) ⟨Rewards.inv_init cfg p h, rfl⟩ cs).2
  rintro s c s' r ⟨hi, hc⟩ hx
  exact ⟨Rewards.inv_step hi hx, by rw [(Rewards.step_frame hi hx).1, hc]⟩

theorem allOf_zero {d : Str} {l : List Coin} (h : ∀ c ∈ l, c.1 ≠ d) : allOf d l = 0 := by
  induction l with
  | nil => rfl
  | cons c t ih =>
    rw [allOf_cons, if_neg (h c (List.mem_cons_self ..)), ih (fun c hc => h c (List.mem_cons_of_mem _ hc))]

/-- no contract has sent more than it received with messages -/
theorem Inv.outflow_le (hi : Inv P setup l w) (hk : (setup a).isSome) (d : Str) : outflow l a d ≤ inflow l a d := by
  obtain ⟨k, hk⟩ := Option.isSome_iff_exists.mp hk
  have zero : (∀ e ∈ l, e.p.target = a → allOf d (e.act.sends.map Prod.snd) = 0) → outflow l a d ≤ inflow l a d := by
    intro h
    have : outflow l a d = 0 := by
      unfold outflow
      apply List.sum_eq_zero
      intro x hx
      obtain ⟨e, he, rfl⟩ := List.mem_map.mp hx
      split
      · rename_i ht; exact h e he ht
      · rfl
    omega
  have act : ∀ e ∈ l, e.p.target = a → e.act ∈ actsAt a l := by
    intro e he ht
    rw [← ht]; exact actsAt_mem he
  have hm := hi.acts _ _ hk
  cases k with
  | registry gov =>
    have := hi.registry_owed hk d
    omega
  | rewards cfg p h =>
    by_cases hd : d = cfg.denom
    · subst hd
      have := hi.rewards_pools hk
      omega
    · apply zero
      intro e he ht
      obtain ⟨l1, l2, rfl⟩ := List.append_of_mem he
      subst ht
      obtain ⟨m, t, r, s', _, h2, h3⟩ := hi.rewards_call rfl hk
      rw [h2]
      apply allOf_zero
      intro c hc
      obtain ⟨y, hy, rfl⟩ := List.mem_map.mp hc
      rw [rewards_sends h3 y hy, rewards_config]
      exact Ne.symm hd
  | verifier _ | gateway _ | router _ | nexus _ | multisig _ | prover _ _ _ =>
    apply zero
    intro e he ht
    have ha := act e he ht
    simp only [Matches] at hm
    rw [hm] at ha
    obtain ⟨x, _, hx⟩ := List.mem_map.mp ha
    rw [← hx]
    rfl

end Amp.Chain
