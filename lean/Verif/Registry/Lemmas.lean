import Verif.Registry.Spec
import Mathlib.Data.List.Nodup

/-! # Helper lemmas for the service registry -/

namespace Amp.Registry

open Amp.Router

/-! ### storage -/

@[simp] theorem services_save (s : State) (n : Str) (a : Addr) (w : Worker) :
    (saveWorker s n a w).services = s.services := rfl
@[simp] theorem governance_save (s : State) (n : Str) (a : Addr) (w : Worker) :
    (saveWorker s n a w).governance = s.governance := rfl
@[simp] theorem perChain_save (s : State) (n : Str) (a : Addr) (w : Worker) :
    (saveWorker s n a w).perChain = s.perChain := rfl

theorem workersOf_save_self (s : State) (n : Str) (a : Addr) (w : Worker) :
    workersOf (saveWorker s n a w) n = (workersOf s n).set a w := by
  simp [workersOf, saveWorker]

theorem workersOf_save_ne (s : State) {n n' : Str} (h : n' ≠ n) (a : Addr) (w : Worker) :
    workersOf (saveWorker s n a w) n' = workersOf s n' := by
  simp [workersOf, saveWorker, KV.set_ne _ _ h]

theorem findWorker_save (s : State) (n n' : Str) (a a' : Addr) (w : Worker) :
    findWorker (saveWorker s n a w) n' a' =
      if n' = n ∧ a' = a then some w else findWorker s n' a' := by
  unfold findWorker
  by_cases hn : n' = n
  · subst hn
    rw [workersOf_save_self, OMap.get?_set]
    by_cases ha : a' = a <;> simp [ha]
  · rw [workersOf_save_ne s hn]
    simp [hn]

theorem findWorker_save_self (s : State) (n : Str) (a : Addr) (w : Worker) :
    findWorker (saveWorker s n a w) n a = some w := by
  rw [findWorker_save]; simp

theorem stakeOf_save (s : State) (n n' : Str) (a a' : Addr) (w : Worker) :
    stakeOf (saveWorker s n a w) n' a' =
      if n' = n ∧ a' = a then w.bonding.amount else stakeOf s n' a' := by
  unfold stakeOf
  rw [findWorker_save]
  by_cases h : n' = n ∧ a' = a
  · rw [if_pos h, if_pos h]
  · rw [if_neg h, if_neg h]

theorem totalStake_save_self {s : State} {n : Str} (hs : (workersOf s n).Sorted) (a : Addr)
    (w : Worker) : totalStake (saveWorker s n a w) n + stakeOf s n a =
      totalStake s n + w.bonding.amount := by
  unfold totalStake
  rw [workersOf_save_self]
  unfold stakeOf findWorker
  cases h : (workersOf s n).get? a with
  | none => simp only [OMap.sumBy_set_none _ w h, Nat.add_zero]
  | some w0 =>
    have := OMap.sumBy_set_some (fun _ w => w.bonding.amount) hs w h
    simpa using this

theorem totalStake_save_ne (s : State) {n n' : Str} (h : n' ≠ n) (a : Addr) (w : Worker) :
    totalStake (saveWorker s n a w) n' = totalStake s n' := by
  unfold totalStake; rw [workersOf_save_ne s h]

/-! ### the record a worker starts from -/

/-- the stored record, or a fresh one -/
def base (s : State) (n : Str) (a : Addr) : Worker :=
  match findWorker s n a with
  | some w => w
  | none => ⟨a, .unbonded, .notAuthorized, n⟩

theorem base_amount (s : State) (n : Str) (a : Addr) :
    (base s n a).bonding.amount = stakeOf s n a := by
  unfold base stakeOf
  cases findWorker s n a <;> rfl

theorem setAuth_eq (s : State) (n : Str) (x : AuthState) (a : Addr) :
    setAuth n x s a = saveWorker s n a { base s n a with auth := x } := by
  unfold setAuth base
  cases findWorker s n a <;> rfl

theorem bondOf_ok {funds : List Coin} {d : Str} {n : Nat} (h : bondOf funds d = .ok n) :
    n = firstOf d funds := by
  unfold bondOf at h
  split at h
  · rename_i hf
    simp only [Except.ok.injEq] at h
    subst h hf; rfl
  · split at h
    · simp at h
    rename_i c hc
    simp only [Except.ok.injEq] at h
    subst h
    clear * - hc
    induction funds with
    | nil => simp at hc
    | cons x t ih =>
      obtain ⟨d', n'⟩ := x
      simp only [List.find?_cons] at hc
      by_cases hd : d' = d
      · simp only [hd, decide_true, Option.some.injEq] at hc
        subst hc
        simp [firstOf, hd]
      · simp only [hd, decide_false] at hc
        simp only [firstOf, if_neg hd]
        exact ih hc

theorem firstOf_le_allOf (d : Str) (l : List Coin) : firstOf d l ≤ allOf d l := by
  induction l with
  | nil => simp [firstOf]
  | cons c t ih =>
    obtain ⟨d', n⟩ := c
    simp only [firstOf, allOf, List.map_cons, List.sum_cons] at ih ⊢
    split <;> omega

/-! ### what each call does -/

theorem bond_ok {s s' : State} {c : Call} {n : Str} {r : Resp} (h : bondWorker s c n = .ok (s', r)) :
    ∃ sv, findService s.services n = some sv ∧ r = {} ∧
      s' = saveWorker s n c.sender { base s n c.sender with
        bonding := .bonded (stakeOf s n c.sender + firstOf sv.denom c.funds) } ∧
      (findWorker s n c.sender ≠ none → stakeOf s n c.sender + firstOf sv.denom c.funds ≠ 0) := by
  unfold bondWorker at h
  split at h
  · simp at h
  rename_i sv hsv
  split at h
  · simp at h
  rename_i bond hb
  have hb := bondOf_ok hb
  subst hb
  refine ⟨sv, hsv, ?_⟩
  split at h
  · rename_i w hw
    split at h
    · simp at h
    rename_i b hadd
    simp only [Except.ok.injEq, Prod.mk.injEq] at h
    have hst : stakeOf s n c.sender = w.bonding.amount := by simp [stakeOf, hw]
    have hb : b = .bonded (stakeOf s n c.sender + firstOf sv.denom c.funds) ∧
        stakeOf s n c.sender + firstOf sv.denom c.funds ≠ 0 := by
      rw [hst]
      unfold BondingState.addBond at hadd
      split at hadd
      all_goals rename_i hbd
      all_goals rw [hbd]
      all_goals simp only [BondingState.amount, Nat.zero_add]
      all_goals split at hadd
      all_goals first | (simp at hadd; done) | skip
      all_goals first
        | (split at hadd
           · simp at hadd
           · rename_i hne
             simp only [Except.ok.injEq] at hadd
             exact ⟨hadd.symm, hne⟩)
        | (rename_i hne
           simp only [Except.ok.injEq] at hadd
           exact ⟨hadd.symm, hne⟩)
    refine ⟨h.2.symm, ?_, fun _ => hb.2⟩
    rw [← h.1, hb.1]
    simp [base, hw]
  · rename_i hw
    simp only [Except.ok.injEq, Prod.mk.injEq] at h
    refine ⟨h.2.symm, ?_, fun hh => absurd hw hh⟩
    rw [← h.1]
    simp [base, hw, stakeOf]

theorem unbond_ok {s s' : State} {c : Call} {n : Str} {r : Resp}
    (h : unbondWorker s c n = .ok (s', r)) :
    ∃ sv w, findService s.services n = some sv ∧ findWorker s n c.sender = some w ∧ r = {} ∧
      s' = saveWorker s n c.sender { w with
        bonding := .unbonding (stakeOf s n c.sender) c.time } ∧
      (w.bonding = .bonded (stakeOf s n c.sender) ∨
        w.bonding = .requestedUnbonding (stakeOf s n c.sender)) := by
  unfold unbondWorker at h
  split at h
  · simp at h
  rename_i sv hsv
  split at h
  · simp at h
  rename_i w hw
  split at h
  · simp at h
  rename_i b hb
  simp only [Except.ok.injEq, Prod.mk.injEq] at h
  have hst : stakeOf s n c.sender = w.bonding.amount := by simp [stakeOf, hw]
  refine ⟨sv, w, hsv, hw, h.2.symm, ?_⟩
  rw [← h.1, hst]
  unfold BondingState.unbond at hb
  split at hb
  · rename_i hbd
    simp only [if_true, Except.ok.injEq] at hb
    rw [hbd, ← hb]
    exact ⟨rfl, Or.inl rfl⟩
  · rename_i hbd
    simp only [if_true, Except.ok.injEq] at hb
    rw [hbd, ← hb]
    exact ⟨rfl, Or.inr rfl⟩
  · simp at hb

theorem claim_ok {s s' : State} {c : Call} {n : Str} {r : Resp}
    (h : claimStake s c n = .ok (s', r)) :
    ∃ sv w t, findService s.services n = some sv ∧ findWorker s n c.sender = some w ∧
      w.bonding = .unbonding (stakeOf s n c.sender) t ∧ t + sv.unbondingDays * dayNanos ≤ c.time ∧
      s' = saveWorker s n c.sender { w with bonding := .unbonded } ∧
      r = { sends := [(c.sender, (sv.denom, stakeOf s n c.sender))] } := by
  unfold claimStake at h
  split at h
  · simp at h
  rename_i sv hsv
  split at h
  · simp at h
  rename_i w hw
  split at h
  · simp at h
  rename_i b rel hb
  simp only [Except.ok.injEq, Prod.mk.injEq] at h
  have hst : stakeOf s n c.sender = w.bonding.amount := by simp [stakeOf, hw]
  unfold BondingState.claimStake at hb
  split at hb
  · rename_i amt t hbd
    split at hb
    · simp at hb
    split at hb
    · rename_i hle
      simp only [Except.ok.injEq, Prod.mk.injEq] at hb
      refine ⟨sv, w, t, hsv, hw, ?_, hle, ?_, ?_⟩
      · rw [hst, hbd]; rfl
      · rw [← h.1, ← hb.1]
      · rw [← h.2, ← hb.2, hst, hbd]; rfl
    · simp at hb
  · simp at hb

theorem declare_ok {s s' : State} {c : Call} {n : Str} {chains : List ChainName} {r : Resp}
    (h : declareChains s c n chains = .ok (s', r)) :
    ∃ sv w, findService s.services n = some sv ∧ findWorker s n c.sender = some w ∧ r = {} ∧
      s' = { s with perChain := chains.foldl (declareOne n c.sender) s.perChain } := by
  unfold declareChains at h
  split at h
  · simp at h
  rename_i sv hsv
  split at h
  · simp at h
  rename_i w hw
  simp only [Except.ok.injEq, Prod.mk.injEq] at h
  exact ⟨sv, w, hsv, hw, h.2.symm, h.1.symm⟩

theorem updateAuth_ok {s s' : State} {ws : List Addr} {n : Str} {x : AuthState} {r : Resp}
    (h : updateAuth s ws n x = .ok (s', r)) :
    ∃ sv, findService s.services n = some sv ∧ r = {} ∧ s' = ws.foldl (setAuth n x) s := by
  unfold updateAuth at h
  split at h
  · simp at h
  rename_i sv hsv
  simp only [Except.ok.injEq, Prod.mk.injEq] at h
  exact ⟨sv, hsv, h.2.symm, h.1.symm⟩

theorem register_ok {s s' : State} {n : Str} {sv : Service} {r : Resp}
    (h : registerService s n sv = .ok (s', r)) :
    findService s.services n = none ∧ r = {} ∧ s' = { s with services := s.services ++ [(n, sv)] } := by
  unfold registerService at h
  split at h
  · rename_i hn
    simp only [Except.ok.injEq, Prod.mk.injEq] at h
    exact ⟨hn, h.2.symm, h.1.symm⟩
  · simp at h

/-- all successful calls -/
theorem exec_ok {s s' : State} {c : Call} {r : Resp} (h : exec s c = .ok (s', r)) :
    (∃ n sv, c.msg = .registerService n sv ∧ c.sender = s.governance ∧
      registerService s n sv = .ok (s', r)) ∨
    (∃ n ws x, c.sender = s.governance ∧
      (c.msg = .authorizeWorkers ws n ∧ x = .authorized ∨
        c.msg = .unauthorizeWorkers ws n ∧ x = .notAuthorized) ∧
      updateAuth s ws n x = .ok (s', r)) ∨
    (∃ n chains, c.msg = .declareChainSupport n chains ∧ declareChains s c n chains = .ok (s', r)) ∨
    (∃ n, c.msg = .bondWorker n ∧ bondWorker s c n = .ok (s', r)) ∨
    (∃ n, c.msg = .unbondWorker n ∧ unbondWorker s c n = .ok (s', r)) ∨
    (∃ n, c.msg = .claimStake n ∧ claimStake s c n = .ok (s', r)) := by
  unfold exec at h
  split at h
  · rename_i n sv hm
    split at h
    · simp at h
    rename_i hg
    exact Or.inl ⟨n, sv, hm, (not_not.mp hg).symm, h⟩
  · rename_i ws n hm
    split at h
    · simp at h
    rename_i hg
    exact Or.inr (Or.inl ⟨n, ws, _, (not_not.mp hg).symm, Or.inl ⟨hm, rfl⟩, h⟩)
  · rename_i ws n hm
    split at h
    · simp at h
    rename_i hg
    exact Or.inr (Or.inl ⟨n, ws, _, (not_not.mp hg).symm, Or.inr ⟨hm, rfl⟩, h⟩)
  · rename_i n ch hm; exact Or.inr (Or.inr (Or.inl ⟨n, ch, hm, h⟩))
  · rename_i n hm; exact Or.inr (Or.inr (Or.inr (Or.inl ⟨n, hm, h⟩)))
  · rename_i n hm; exact Or.inr (Or.inr (Or.inr (Or.inr (Or.inl ⟨n, hm, h⟩))))
  · rename_i n hm; exact Or.inr (Or.inr (Or.inr (Or.inr (Or.inr ⟨n, hm, h⟩))))

/-! ### folding `setAuth` -/

theorem foldAuth (n : Str) (x : AuthState) (ws : List Addr) (s : State) :
    let s' := ws.foldl (setAuth n x) s
    s'.services = s.services ∧ s'.governance = s.governance ∧ s'.perChain = s.perChain ∧
    (∀ n' a, findWorker s' n' a =
      if n' = n ∧ a ∈ ws then some { base s n' a with auth := x } else findWorker s n' a) := by
  induction ws generalizing s with
  | nil => simp
  | cons a t ih =>
    simp only [List.foldl_cons]
    obtain ⟨h1, h2, h3, h4⟩ := ih (setAuth n x s a)
    rw [setAuth_eq] at h1 h2 h3 h4 ⊢
    refine ⟨h1, h2, h3, ?_⟩
    intro n' a'
    rw [h4]
    by_cases hn : n' = n
    · subst hn
      by_cases hm : a' ∈ t
      · rw [if_pos ⟨rfl, hm⟩, if_pos ⟨rfl, by simp [hm]⟩]
        by_cases ha : a' = a
        · subst ha; simp [base, findWorker_save]
        · simp [base, findWorker_save, ha]
      · rw [if_neg (by simp [hm]), findWorker_save]
        by_cases ha : a' = a
        · subst ha; simp
        · simp [ha, hm]
    · simp [hn, findWorker_save]

theorem foldAuth_stake (n : Str) (x : AuthState) (ws : List Addr) (s : State) (n' : Str) (a : Addr) :
    stakeOf (ws.foldl (setAuth n x) s) n' a = stakeOf s n' a := by
  obtain ⟨_, _, _, h4⟩ := foldAuth n x ws s
  unfold stakeOf
  rw [h4]
  by_cases h : n' = n ∧ a ∈ ws
  · rw [if_pos h]
    show (base s n' a).bonding.amount = _
    rw [base_amount]; rfl
  · rw [if_neg h]

theorem setAuth_sorted {n : Str} {x : AuthState} {s : State} {a : Addr}
    (h : ∀ n', (workersOf s n').Sorted) (n' : Str) : (workersOf (setAuth n x s a) n').Sorted := by
  rw [setAuth_eq]
  by_cases hn : n' = n
  · subst hn; rw [workersOf_save_self]; exact OMap.sorted_set (h n') _ _
  · rw [workersOf_save_ne s hn]; exact h n'

theorem foldAuth_sorted {n : Str} {x : AuthState} {ws : List Addr} {s : State}
    (h : ∀ n', (workersOf s n').Sorted) (n' : Str) :
    (workersOf (ws.foldl (setAuth n x) s) n').Sorted := by
  induction ws generalizing s with
  | nil => exact h n'
  | cons a t ih => exact ih (fun n' => setAuth_sorted h n')

theorem foldAuth_total {n : Str} {x : AuthState} {ws : List Addr} {s : State}
    (h : ∀ n', (workersOf s n').Sorted) (n' : Str) :
    totalStake (ws.foldl (setAuth n x) s) n' = totalStake s n' := by
  induction ws generalizing s with
  | nil => rfl
  | cons a t ih =>
    rw [List.foldl_cons, ih (fun n' => setAuth_sorted h n'), setAuth_eq]
    by_cases hn : n' = n
    · subst hn
      have := totalStake_save_self (h n') a { base s n' a with auth := x }
      rw [show ({ base s n' a with auth := x } : Worker).bonding.amount = stakeOf s n' a from
        base_amount s n' a] at this
      omega
    · rw [totalStake_save_ne s hn]

theorem foldAuth_workersOf_ne {n n' : Str} (hn : n' ≠ n) {x : AuthState} {ws : List Addr} {s : State} :
    workersOf (ws.foldl (setAuth n x) s) n' = workersOf s n' := by
  induction ws generalizing s with
  | nil => rfl
  | cons a t ih => rw [List.foldl_cons, ih, setAuth_eq, workersOf_save_ne s hn]

/-! ### services -/

theorem findService_append (l : List (Str × Service)) (n n' : Str) (sv : Service) :
    findService (l ++ [(n, sv)]) n' =
      match findService l n' with
      | some x => some x
      | none => if n = n' then some sv else none := by
  induction l with
  | nil => rfl
  | cons e t ih =>
    obtain ⟨m, x⟩ := e
    simp only [List.cons_append, findService]
    by_cases h : m = n'
    · simp [h]
    · simp only [if_neg h, ih]

theorem findService_none {l : List (Str × Service)} {n : Str} :
    findService l n = none ↔ n ∉ l.map Prod.fst := by
  induction l with
  | nil => simp [findService]
  | cons e t ih =>
    obtain ⟨m, x⟩ := e
    simp only [findService, List.map_cons, List.mem_cons, not_or]
    by_cases h : m = n
    · simp [h]
    · rw [if_neg h, ih]; simp [Ne.symm h]

theorem findService_mem {l : List (Str × Service)} {n : Str} {sv : Service}
    (h : findService l n = some sv) : (n, sv) ∈ l := by
  induction l with
  | nil => simp [findService] at h
  | cons e t ih =>
    obtain ⟨m, x⟩ := e
    simp only [findService] at h
    by_cases hm : m = n
    · subst hm; simp at h; simp [h]
    · rw [if_neg hm] at h; exact List.mem_cons_of_mem _ (ih h)

/-! ### the invariant -/

/-- what holds in every reachable state -/
structure Inv (s : State) : Prop where
  sorted : ∀ n, (workersOf s n).Sorted
  own : ∀ n a w, findWorker s n a = some w → w.address = a ∧ w.service = n
  noReq : ∀ n a w k, findWorker s n a = some w → w.bonding ≠ .requestedUnbonding k
  empty : ∀ n, findService s.services n = none → workersOf s n = []
  names : (s.services.map Prod.fst).Nodup
  chainSorted : ∀ n ch m, s.perChain (n, ch) = some m → m.Sorted
  chainWorker : ∀ n ch a, a ∈ declared s n ch → ∃ w, findWorker s n a = some w

theorem inv_init (g : Addr) : Inv (init g) where
  sorted := fun n => by simp [workersOf, init, OMap.Sorted]
  own := fun n a w h => by simp [findWorker, workersOf, init] at h
  noReq := fun n a w k h => by simp [findWorker, workersOf, init] at h
  empty := fun n _ => by simp [workersOf, init]
  names := by simp [init]
  chainSorted := fun n ch m h => by simp [init] at h
  chainWorker := fun n ch a h => by simp [declared, init] at h

theorem base_own {s : State} (hi : Inv s) (n : Str) (a : Addr) :
    (base s n a).address = a ∧ (base s n a).service = n := by
  unfold base
  cases h : findWorker s n a with
  | none => exact ⟨rfl, rfl⟩
  | some w => exact hi.own n a w h

theorem base_noReq {s : State} (hi : Inv s) (n : Str) (a : Addr) (k : Nat) :
    (base s n a).bonding ≠ .requestedUnbonding k := by
  unfold base
  cases h : findWorker s n a with
  | none => simp
  | some w => exact hi.noReq n a w k h

theorem inv_save {s : State} (hi : Inv s) {n : Str} {a : Addr} {w : Worker} {sv : Service}
    (hsv : findService s.services n = some sv) (ha : w.address = a) (hn : w.service = n)
    (hr : ∀ k, w.bonding ≠ .requestedUnbonding k) : Inv (saveWorker s n a w) where
  sorted := by
    intro n'
    by_cases h : n' = n
    · subst h; rw [workersOf_save_self]; exact OMap.sorted_set (hi.sorted n') _ _
    · rw [workersOf_save_ne s h]; exact hi.sorted n'
  own := by
    intro n' a' w' h
    rw [findWorker_save] at h
    split at h
    · rename_i hh
      simp only [Option.some.injEq] at h
      subst h
      exact ⟨ha.trans hh.2.symm, hn.trans hh.1.symm⟩
    · exact hi.own n' a' w' h
  noReq := by
    intro n' a' w' k h
    rw [findWorker_save] at h
    split at h
    · simp only [Option.some.injEq] at h
      subst h
      exact hr k
    · exact hi.noReq n' a' w' k h
  empty := by
    intro n' h
    simp only [services_save] at h
    have hne : n' ≠ n := by rintro rfl; rw [hsv] at h; simp at h
    rw [workersOf_save_ne s hne]
    exact hi.empty n' h
  names := hi.names
  chainSorted := hi.chainSorted
  chainWorker := by
    intro n' ch a' h
    obtain ⟨w', h'⟩ := hi.chainWorker n' ch a' h
    rw [findWorker_save]
    by_cases hh : n' = n ∧ a' = a
    · exact ⟨w, if_pos hh⟩
    · exact ⟨w', by rw [if_neg hh]; exact h'⟩

theorem inv_foldAuth {s : State} (hi : Inv s) {n : Str} {x : AuthState} {ws : List Addr} {sv : Service}
    (hsv : findService s.services n = some sv) : Inv (ws.foldl (setAuth n x) s) := by
  induction ws generalizing s with
  | nil => exact hi
  | cons a t ih =>
    rw [List.foldl_cons, setAuth_eq]
    exact ih (inv_save hi hsv (base_own hi n a).1 (base_own hi n a).2 (base_noReq hi n a)) hsv

theorem declareOne_apply (n : Str) (a : Addr) (pc : KV (Str × ChainName) (OMap Addr Unit))
    (ch : ChainName) (k : Str × ChainName) :
    declareOne n a pc ch k =
      if k = (n, ch) then some (OMap.set (match pc (n, ch) with | none => [] | some m => m) a ())
      else pc k := by
  unfold declareOne
  cases pc (n, ch) <;> simp [KV.set_apply]

theorem foldDeclare (n : Str) (a : Addr) (chains : List ChainName)
    (pc : KV (Str × ChainName) (OMap Addr Unit))
    (hs : ∀ k m, pc k = some m → OMap.Sorted m) :
    (∀ k m, chains.foldl (declareOne n a) pc k = some m → OMap.Sorted m) ∧
    (∀ n' ch a', (∃ m, chains.foldl (declareOne n a) pc (n', ch) = some m ∧ a' ∈ OMap.keys m) ↔
      (∃ m, pc (n', ch) = some m ∧ a' ∈ OMap.keys m) ∨ n' = n ∧ ch ∈ chains ∧ a' = a) := by
  induction chains generalizing pc with
  | nil => exact ⟨hs, by simp⟩
  | cons c t ih =>
    have hs1 : ∀ k m, declareOne n a pc c k = some m → OMap.Sorted m := by
      intro k m h
      rw [declareOne_apply] at h
      split at h
      · simp only [Option.some.injEq] at h
        subst h
        apply OMap.sorted_set
        cases hp : pc (n, c) with
        | none => exact OMap.sorted_nil
        | some m => exact hs _ _ hp
      · exact hs _ _ h
    obtain ⟨i1, i2⟩ := ih (declareOne n a pc c) hs1
    refine ⟨i1, ?_⟩
    intro n' ch a'
    rw [List.foldl_cons, i2]
    have hkey : (∃ m, declareOne n a pc c (n', ch) = some m ∧ a' ∈ OMap.keys m) ↔
        (∃ m, pc (n', ch) = some m ∧ a' ∈ OMap.keys m) ∨ n' = n ∧ ch = c ∧ a' = a := by
      rw [declareOne_apply]
      by_cases hk : (n', ch) = (n, c)
      · rw [if_pos hk]
        simp only [Prod.mk.injEq] at hk
        obtain ⟨rfl, rfl⟩ := hk
        have hmem : ∀ (m : OMap Addr Unit), a' ∈ OMap.keys (OMap.set m a ()) ↔
            a' ∈ OMap.keys m ∨ a' = a := by
          intro m
          have e1 := OMap.get?_eq_none_iff (m := OMap.set m a ()) (k := a')
          have e2 := OMap.get?_eq_none_iff (m := m) (k := a')
          rw [OMap.get?_set] at e1
          by_cases ha : a' = a
          · rw [if_pos ha] at e1
            simp only [reduceCtorEq, false_iff, not_not] at e1
            exact ⟨fun _ => Or.inr ha, fun _ => e1⟩
          · rw [if_neg ha, e2] at e1
            simp only [ha, or_false]
            exact (not_iff_not.mp e1).symm
        cases hp : pc (n', ch) with
        | none =>
          have := hmem []
          simpa [OMap.keys] using this
        | some m => simp [hmem]
      · rw [if_neg hk]
        have : ¬ (n' = n ∧ ch = c ∧ a' = a) := fun h => hk (by rw [h.1, h.2.1])
        simp [this]
    rw [hkey]
    simp only [List.mem_cons]
    constructor
    · rintro ((h | ⟨h1, h2, h3⟩) | ⟨h1, h2, h3⟩)
      · exact Or.inl h
      · exact Or.inr ⟨h1, Or.inl h2, h3⟩
      · exact Or.inr ⟨h1, Or.inr h2, h3⟩
    · rintro (h | ⟨h1, h2 | h2, h3⟩)
      · exact Or.inl (Or.inl h)
      · exact Or.inl (Or.inr ⟨h1, h2, h3⟩)
      · exact Or.inr ⟨h1, h2, h3⟩

theorem mem_declared {s : State} {n : Str} {ch : ChainName} {a : Addr} :
    a ∈ declared s n ch ↔ ∃ m, s.perChain (n, ch) = some m ∧ a ∈ OMap.keys m := by
  unfold declared
  cases s.perChain (n, ch) <;> simp

theorem inv_step {s s' : State} {c : Call} {r : Resp} (hi : Inv s) (h : exec s c = .ok (s', r)) :
    Inv s' := by
  rcases exec_ok h with ⟨n, sv, _, _, hx⟩ | ⟨n, ws, x, _, _, hx⟩ | ⟨n, chains, _, hx⟩ | ⟨n, _, hx⟩ |
    ⟨n, _, hx⟩ | ⟨n, _, hx⟩
  · obtain ⟨hn, _, rfl⟩ := register_ok hx
    refine ⟨hi.sorted, hi.own, hi.noReq, ?_, ?_, hi.chainSorted, hi.chainWorker⟩
    · intro n' hn'
      apply hi.empty n'
      simp only [findService_append] at hn'
      cases hf : findService s.services n' with
      | none => rfl
      | some x => rw [hf] at hn'; simp at hn'
    · simp only [List.map_append, List.map_cons, List.map_nil]
      refine List.nodup_append.mpr ⟨hi.names, by simp, ?_⟩
      intro a ha b hb hab
      simp only [List.mem_singleton] at hb
      subst hb hab
      exact findService_none.mp hn ha
  · obtain ⟨sv, hsv, _, rfl⟩ := updateAuth_ok hx
    exact inv_foldAuth hi hsv
  · obtain ⟨sv, w, hsv, hw, _, rfl⟩ := declare_ok hx
    have hs : ∀ k m, s.perChain k = some m → OMap.Sorted m := fun k m hk => hi.chainSorted k.1 k.2 m hk
    obtain ⟨h1, h2⟩ := foldDeclare n c.sender chains s.perChain hs
    refine ⟨hi.sorted, hi.own, hi.noReq, hi.empty, hi.names, fun n' ch m hk => h1 _ _ hk, ?_⟩
    intro n' ch a ha
    rw [mem_declared] at ha
    simp only at ha
    rw [h2] at ha
    rcases ha with ha | ⟨rfl, _, rfl⟩
    · exact hi.chainWorker n' ch a (mem_declared.mpr ha)
    · exact ⟨w, hw⟩
  · obtain ⟨sv, hsv, _, rfl, _⟩ := bond_ok hx
    exact inv_save hi hsv (base_own hi n _).1 (base_own hi n _).2 (by simp)
  · obtain ⟨sv, w, hsv, hw, _, rfl, _⟩ := unbond_ok hx
    exact inv_save hi hsv (hi.own _ _ _ hw).1 (hi.own _ _ _ hw).2 (by simp)
  · obtain ⟨sv, w, t, hsv, hw, _, _, rfl, _⟩ := claim_ok hx
    exact inv_save hi hsv (hi.own _ _ _ hw).1 (hi.own _ _ _ hw).2 (by simp)

theorem inv_reachable (gov : Addr) (cs : List Call) : Inv (stateAfter gov cs) :=
  runCalls_inv exec (P := Inv) (fun _ _ _ _ hi hx => inv_step hi hx) _ (inv_init gov) cs

end Amp.Registry
