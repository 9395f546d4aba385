import Verif.Store.Model
import Mathlib.Data.List.Basic
import Mathlib.Data.List.Nodup

/-!
# C88: what is stored in one place is not reached from another
-/

namespace Amp.Store

/-! ## Specification -/

/-- an ideal store: one value per place -/
def runIdeal {S V : Type} [DecidableEq S] : KV S V → List (Access S V) → List (Option V)
  | _, [] => []
  | m, .write s v :: t => runIdeal (m.set s v) t
  | m, .remove s :: t => runIdeal (m.erase s) t
  | m, .read s :: t => m s :: runIdeal m t

/-- the place accessed -/
def Access.slot {S V : Type} : Access S V → S
  | .write s _ => s
  | .remove s => s
  | .read s => s

/-- numbers used as keys are 64 bit numbers -/
def U64 (n : Nat) : Prop := n < 2 ^ 64

/-- names are distinct, start with a letter and are shorter than 256 bytes -/
def Schema.Good (S : Schema) : Prop :=
  (S.map Prod.fst).Nodup ∧ ∀ e ∈ S, e.1.length < 256 ∧ ∃ x t, e.1 = x :: t ∧ x ≠ 0

/-- a place that is declared in a schema -/
def Loc.In (l : Loc) (S : Schema) : Prop := (l.name, l.parts.length) ∈ S

/-! ## Keys determine places -/

theorem be_length (k n : Nat) : (be k n).length = k := by
  induction k generalizing n with
  | zero => rfl
  | succ k ih => simp [be, ih]

theorem be_inj {k n m : Nat} (hn : n < 256 ^ k) (hm : m < 256 ^ k) (h : be k n = be k m) : n = m := by
  induction k generalizing n m with
  | zero => rw [Nat.pow_zero] at hn hm; omega
  | succ k ih =>
    rw [be, be] at h
    obtain ⟨h1, h2⟩ := List.append_inj' h rfl
    have h3 : n % 256 = m % 256 := by simpa using h2
    have h4 := ih (n := n / 256) (m := m / 256) (by rw [Nat.pow_succ] at hn; omega) (by rw [Nat.pow_succ] at hm; omega) h1
    omega

theorem prefixed_some {b x : Bytes} (h : prefixed b = some x) : b.length ≤ 65535 ∧ x = be 2 b.length ++ b := by
  unfold prefixed at h
  split at h
  · exact ⟨by assumption, (Option.some.inj h).symm⟩
  · simp at h

/-- a part with its length can be told from what follows -/
theorem prefixed_cancel {b c x y u v : Bytes} (hb : prefixed b = some x) (hc : prefixed c = some y)
    (h : x ++ u = y ++ v) : b = c ∧ u = v := by
  obtain ⟨h1, rfl⟩ := prefixed_some hb
  obtain ⟨h2, rfl⟩ := prefixed_some hc
  rw [List.append_assoc, List.append_assoc] at h
  obtain ⟨h3, h4⟩ := List.append_inj h (by rw [be_length, be_length])
  have h5 := be_inj (k := 2) (Nat.lt_succ_of_le h1) (Nat.lt_succ_of_le h2) h3
  exact List.append_inj h4 h5

theorem prefixedAll_cons {b : Bytes} {t : List Bytes} {x : Bytes} (h : prefixedAll (b :: t) = some x) :
    ∃ y z, prefixed b = some y ∧ prefixedAll t = some z ∧ x = y ++ z := by
  rw [prefixedAll] at h
  cases h1 : prefixed b with
  | none => simp [h1] at h
  | some y =>
    cases h2 : prefixedAll t with
    | none => simp [h1, h2] at h
    | some z => simp only [h1, h2, Option.some.injEq] at h; exact ⟨y, z, rfl, rfl, h.symm⟩

theorem prefixedAll_cancel {s t : List Bytes} {x y u v : Bytes} (hl : s.length = t.length)
    (hs : prefixedAll s = some x) (ht : prefixedAll t = some y) (h : x ++ u = y ++ v) : s = t ∧ u = v := by
  induction s generalizing t x y with
  | nil =>
    cases t with
    | nil => cases hs; cases ht; exact ⟨rfl, h⟩
    | cons b t => simp at hl
  | cons a s ih =>
    cases t with
    | nil => simp at hl
    | cons b t =>
      obtain ⟨x1, x2, ha, hs', rfl⟩ := prefixedAll_cons hs
      obtain ⟨y1, y2, hb, ht', rfl⟩ := prefixedAll_cons ht
      rw [List.append_assoc, List.append_assoc] at h
      obtain ⟨rfl, h'⟩ := prefixed_cancel ha hb h
      obtain ⟨rfl, h''⟩ := ih (by simpa using hl) hs' ht' h'
      exact ⟨rfl, h''⟩

theorem raw_item {l : Loc} {k : Bytes} (h : l.raw = some k) (hp : l.parts = []) : k = l.name := by
  unfold Loc.raw at h
  rw [hp] at h
  exact (Option.some.inj h).symm

theorem raw_map {l : Loc} {k : Bytes} (h : l.raw = some k) (hp : l.parts ≠ []) :
    ∃ x y z, prefixed l.name = some x ∧ prefixedAll l.parts.dropLast = some y ∧
      l.parts = l.parts.dropLast ++ [z] ∧ k = x ++ (y ++ z) := by
  unfold Loc.raw at h
  cases hz : l.parts.getLast? with
  | none => exact absurd (List.getLast?_eq_none_iff.mp hz) hp
  | some z =>
    simp only [hz] at h
    cases hq : prefixedAll (l.name :: l.parts.dropLast) with
    | none => simp [hq] at h
    | some q =>
      simp only [hq, Option.some.injEq] at h
      obtain ⟨x, y, h1, h2, rfl⟩ := prefixedAll_cons hq
      refine ⟨x, y, z, h1, h2, ?_, by rw [← h, List.append_assoc]⟩
      obtain ⟨_, he⟩ := List.getLast?_eq_some_iff.mp hz
      rw [he, List.dropLast_concat]

theorem be2_small {n : Nat} (h : n < 256) : be 2 n = [0, n] := by
  have h1 : n / 256 = 0 := by omega
  have h2 : n % 256 = n := by omega
  simp [be, h1, h2]

theorem name_start {S : Schema} (hS : S.Good) {l : Loc} (hl : l.In S) :
    l.name.length < 256 ∧ ∃ x t, l.name = x :: t ∧ x ≠ 0 := hS.2 _ hl

/-- keys of declared places determine the place -/
theorem raw_inj {S : Schema} (hS : S.Good) {l m : Loc} (hl : l.In S) (hm : m.In S) {k : Bytes}
    (h1 : l.raw = some k) (h2 : m.raw = some k) : l = m := by
  have zero : ∀ {l : Loc} {k : Bytes}, l.In S → l.raw = some k → l.parts ≠ [] → k.head? = some 0 := by
    intro l k hl h hp
    obtain ⟨x, y, z, hx, -, -, rfl⟩ := raw_map h hp
    obtain ⟨-, rfl⟩ := prefixed_some hx
    rw [be2_small (name_start hS hl).1]
    rfl
  have nonzero : ∀ {l : Loc} {k : Bytes}, l.In S → l.raw = some k → l.parts = [] → k.head? ≠ some 0 := by
    intro l k hl h hp
    rw [raw_item h hp]
    obtain ⟨-, x, t, he, hx⟩ := name_start hS hl
    rw [he]
    simpa using hx
  by_cases hp : l.parts = []
  · by_cases hq : m.parts = []
    · have hn : l.name = m.name := (raw_item h1 hp).symm.trans (raw_item h2 hq)
      cases l
      cases m
      exact (Loc.mk.injEq _ _ _ _).mpr ⟨hn, hp.trans hq.symm⟩
    · exact absurd (zero hm h2 hq) (nonzero hl h1 hp)
  · by_cases hq : m.parts = []
    · exact absurd (zero hl h1 hp) (nonzero hm h2 hq)
    · obtain ⟨x, y, z, hx, hy, hz, rfl⟩ := raw_map h1 hp
      obtain ⟨x', y', z', hx', hy', hz', he⟩ := raw_map h2 hq
      obtain ⟨hn, he⟩ := prefixed_cancel hx hx' he
      have hlen : l.parts.length = m.parts.length := by
        have := List.inj_on_of_nodup_map hS.1 hl hm hn
        exact (Prod.mk.inj this).2
      obtain ⟨hd, rfl⟩ := prefixedAll_cancel (by simp [hlen]) hy hy' he
      have hpe : l.parts = m.parts := by rw [hz, hz', hd]
      cases l
      cases m
      exact (Loc.mk.injEq _ _ _ _).mpr ⟨hn, hpe⟩

/-! ## The contracts -/

/-- in a store all of whose places have keys of their own, reads give what was last written to the place -/
theorem ideal_of_inj {S V : Type} [DecidableEq S] {raw : S → Option Bytes} {P : S → Prop}
    (hinj : ∀ s t k, P s → P t → raw s = some k → raw t = some k → s = t)
    (as : List (Access S V)) (ha : ∀ a ∈ as, P a.slot) (m : KV Bytes V) (i : KV S V)
    (hmi : ∀ s k, P s → raw s = some k → m k = i s) (m' : KV Bytes V) (rs : List (Option V))
    (h : runRaw raw m as = some (m', rs)) : rs = runIdeal i as := by
  induction as generalizing m i m' rs with
  | nil => simp only [runRaw, Option.some.injEq, Prod.mk.injEq] at h; rw [← h.2]; rfl
  | cons a t ih =>
    have hat : ∀ a ∈ t, P a.slot := fun a h => ha a (List.mem_cons_of_mem _ h)
    have hs : P a.slot := ha a (by simp)
    cases a with
    | write s v =>
      rw [runRaw] at h
      cases hr : raw s with
      | none => simp [hr] at h
      | some k =>
        simp only [hr] at h
        refine ih hat _ (i.set s v) (fun s' k' hp' hr' => ?_) _ _ h
        rw [KV.set_apply, KV.set_apply]
        by_cases hk : k' = k
        · subst hk
          rw [if_pos rfl, if_pos (hinj s' s k' hp' hs hr' hr)]
        · rw [if_neg hk, if_neg (fun he => hk (by rw [he, hr] at hr'; exact (Option.some.inj hr').symm))]
          exact hmi s' k' hp' hr'
    | remove s =>
      rw [runRaw] at h
      cases hr : raw s with
      | none => simp [hr] at h
      | some k =>
        simp only [hr] at h
        refine ih hat _ (i.erase s) (fun s' k' hp' hr' => ?_) _ _ h
        rw [KV.erase_apply, KV.erase_apply]
        by_cases hk : k' = k
        · subst hk
          rw [if_pos rfl, if_pos (hinj s' s k' hp' hs hr' hr)]
        · rw [if_neg hk, if_neg (fun he => hk (by rw [he, hr] at hr'; exact (Option.some.inj hr').symm))]
          exact hmi s' k' hp' hr'
    | read s =>
      rw [runRaw] at h
      cases hr : raw s with
      | none => simp [hr] at h
      | some k =>
        simp only [hr] at h
        cases ht : runRaw raw m t with
        | none => simp [ht] at h
        | some q =>
          obtain ⟨m1, rs1⟩ := q
          simp only [ht, Option.some.injEq, Prod.mk.injEq] at h
          rw [← h.2, runIdeal, hmi s k hs hr, ih hat m i hmi m1 rs1 ht]

theorem good_of {S : Schema} (h1 : (S.map Prod.fst).Nodup)
    (h2 : S.all (fun e => decide (e.1.length < 256) && decide (e.1.head? ≠ some 0) && decide (e.1 ≠ [])) = true) :
    S.Good := by
  refine ⟨h1, fun e he => ?_⟩
  have := List.all_eq_true.mp h2 e he
  simp only [Bool.and_eq_true, decide_eq_true_eq] at this
  obtain ⟨⟨h3, h4⟩, h5⟩ := this
  refine ⟨h3, ?_⟩
  cases hn : e.1 with
  | nil => exact absurd hn h5
  | cons x t => exact ⟨x, t, rfl, fun h0 => h4 (by rw [hn, h0]; rfl)⟩

theorem u64_inj {n m : Nat} (hn : U64 n) (hm : U64 m) (h : be 8 n = be 8 m) : n = m :=
  be_inj (k := 8) (lt_of_lt_of_eq hn (by decide)) (lt_of_lt_of_eq hm (by decide)) h

theorem byte_inj {a b : KeyType} (h : a.byte = b.byte) : a = b := by
  cases a <;> cases b <;> first | rfl | exact absurd h (by decide)

/-- **C88, for all contracts**: used by the theorems below. -/
theorem faithful {S V : Type} [DecidableEq S] {loc : S → Loc} {P : S → Prop} {sch : Schema} (hg : sch.Good)
    (hin : ∀ s, (loc s).In sch) (hloc : ∀ s t, P s → P t → loc s = loc t → s = t)
    (as : List (Access S V)) (ha : ∀ a ∈ as, P a.slot) (m' : KV Bytes V) (rs : List (Option V))
    (h : runRaw (fun s => (loc s).raw) KV.empty as = some (m', rs)) : rs = runIdeal KV.empty as :=
  ideal_of_inj (P := P) (fun s t _ hs ht h1 h2 => hloc s t hs ht (raw_inj hg (hin s) (hin t) h1 h2)) as ha KV.empty
    KV.empty (fun _ _ _ _ => rfl) m' rs h

/-- **C88.** Whatever the router writes, removes and reads, each read gives what was last written to that very
place. -/
theorem C88_router {V : Type} (as : List (Access RouterSlot V)) (m : KV Bytes V)
    (rs : List (Option V)) (h : runRaw (fun s => s.loc.raw) KV.empty as = some (m, rs)) : rs = runIdeal KV.empty as := by
  refine faithful (P := fun _ => True) (sch := routerSchema) (good_of (by decide) (by decide)) (fun s => ?_) ?_ as (fun _ _ => trivial) m rs h
  · cases s <;> simp [Loc.In, RouterSlot.loc, routerSchema]
  · intro s t hs ht he
    cases s <;> cases t <;> simp only [RouterSlot.loc, Loc.mk.injEq, List.cons.injEq] at he <;>
      first
        | rfl
        | exact absurd he.1 (by decide)
        | (obtain ⟨-, h⟩ := he; simp_all [CcId.ext_iff])

/-- **C88.** Whatever the gateway writes, removes and reads, each read gives what was last written to that very
place. -/
theorem C88_gateway {V : Type} (as : List (Access GatewaySlot V)) (m : KV Bytes V)
    (rs : List (Option V)) (h : runRaw (fun s => s.loc.raw) KV.empty as = some (m, rs)) : rs = runIdeal KV.empty as := by
  refine faithful (P := fun _ => True) (sch := gatewaySchema) (good_of (by decide) (by decide)) (fun s => ?_) ?_ as (fun _ _ => trivial) m rs h
  · cases s <;> simp [Loc.In, GatewaySlot.loc, gatewaySchema]
  · intro s t hs ht he
    cases s <;> cases t <;> simp only [GatewaySlot.loc, Loc.mk.injEq, List.cons.injEq] at he <;>
      first
        | rfl
        | exact absurd he.1 (by decide)
        | (obtain ⟨-, h⟩ := he; simp_all [CcId.ext_iff])

/-- **C88.** Whatever the nexus gateway writes, removes and reads, each read gives what was last written to that very
place. -/
theorem C88_nexus {V : Type} (as : List (Access NexusSlot V)) (m : KV Bytes V)
    (rs : List (Option V)) (h : runRaw (fun s => s.loc.raw) KV.empty as = some (m, rs)) : rs = runIdeal KV.empty as := by
  refine faithful (P := fun _ => True) (sch := nexusSchema) (good_of (by decide) (by decide)) (fun s => ?_) ?_ as (fun _ _ => trivial) m rs h
  · cases s <;> simp [Loc.In, NexusSlot.loc, nexusSchema]
  · intro s t hs ht he
    cases s <;> cases t <;> simp only [NexusSlot.loc, Loc.mk.injEq, List.cons.injEq] at he <;>
      first
        | rfl
        | exact absurd he.1 (by decide)
        | (obtain ⟨-, h⟩ := he; simp_all [CcId.ext_iff])

/-- numbers in places are 64 bit numbers -/
def ProverSlot.Ok : ProverSlot → Prop
  | .sessionBatch n => U64 n
  | _ => True

/-- **C88.** Whatever the prover writes, removes and reads, each read gives what was last written to that very
place. -/
theorem C88_prover {V : Type} (as : List (Access ProverSlot V)) (ha : ∀ a ∈ as, a.slot.Ok) (m : KV Bytes V)
    (rs : List (Option V)) (h : runRaw (fun s => s.loc.raw) KV.empty as = some (m, rs)) : rs = runIdeal KV.empty as := by
  refine faithful (P := ProverSlot.Ok) (sch := proverSchema) (good_of (by decide) (by decide)) (fun s => ?_) ?_ as ha m rs h
  · cases s <;> simp [Loc.In, ProverSlot.loc, proverSchema]
  · intro s t hs ht he
    cases s <;> cases t <;> simp only [ProverSlot.loc, Loc.mk.injEq, List.cons.injEq] at he <;>
      first
        | rfl
        | exact absurd he.1 (by decide)
        | (obtain ⟨-, h⟩ := he; simp_all; done)
        | (obtain ⟨-, h⟩ := he; simp_all; exact u64_inj hs ht h)
        | (obtain ⟨-, h⟩ := he; simp_all; exact u64_inj hs ht h.1)
        | (obtain ⟨-, h⟩ := he; simp_all; exact u64_inj hs ht h.2)
        | (obtain ⟨-, h⟩ := he; simp_all; exact byte_inj h.2)

/-- numbers in places are 64 bit numbers -/
def MultisigSlot.Ok : MultisigSlot → Prop
  | .session n => U64 n
  | .signature n _ => U64 n
  | _ => True

/-- **C88.** Whatever the multisig contract writes, removes and reads, each read gives what was last written to that very
place. -/
theorem C88_multisig {V : Type} (as : List (Access MultisigSlot V)) (ha : ∀ a ∈ as, a.slot.Ok) (m : KV Bytes V)
    (rs : List (Option V)) (h : runRaw (fun s => s.loc.raw) KV.empty as = some (m, rs)) : rs = runIdeal KV.empty as := by
  refine faithful (P := MultisigSlot.Ok) (sch := multisigSchema) (good_of (by decide) (by decide)) (fun s => ?_) ?_ as ha m rs h
  · cases s <;> simp [Loc.In, MultisigSlot.loc, multisigSchema]
  · intro s t hs ht he
    cases s <;> cases t <;> simp only [MultisigSlot.loc, Loc.mk.injEq, List.cons.injEq] at he <;>
      first
        | rfl
        | exact absurd he.1 (by decide)
        | (obtain ⟨-, h⟩ := he; simp_all; done)
        | (obtain ⟨-, h⟩ := he; simp_all; exact u64_inj hs ht h)
        | (obtain ⟨-, h⟩ := he; simp_all; exact u64_inj hs ht h.1)
        | (obtain ⟨-, h⟩ := he; simp_all; exact u64_inj hs ht h.2)
        | (obtain ⟨-, h⟩ := he; simp_all; exact byte_inj h.2)

/-- numbers in places are 64 bit numbers -/
def RewardsSlot.Ok : RewardsSlot → Prop
  | .tally _ n => U64 n
  | _ => True

/-- **C88.** Whatever the rewards contract writes, removes and reads, each read gives what was last written to that very
place. -/
theorem C88_rewards {V : Type} (as : List (Access RewardsSlot V)) (ha : ∀ a ∈ as, a.slot.Ok) (m : KV Bytes V)
    (rs : List (Option V)) (h : runRaw (fun s => s.loc.raw) KV.empty as = some (m, rs)) : rs = runIdeal KV.empty as := by
  refine faithful (P := RewardsSlot.Ok) (sch := rewardsSchema) (good_of (by decide) (by decide)) (fun s => ?_) ?_ as ha m rs h
  · cases s <;> simp [Loc.In, RewardsSlot.loc, rewardsSchema]
  · intro s t hs ht he
    cases s <;> cases t <;> simp only [RewardsSlot.loc, Loc.mk.injEq, List.cons.injEq] at he <;>
      first
        | rfl
        | exact absurd he.1 (by decide)
        | (obtain ⟨-, h⟩ := he; simp_all; done)
        | (obtain ⟨-, h⟩ := he; simp_all; exact u64_inj hs ht h)
        | (obtain ⟨-, h⟩ := he; simp_all; exact u64_inj hs ht h.1)
        | (obtain ⟨-, h⟩ := he; simp_all; exact u64_inj hs ht h.2)
        | (obtain ⟨-, h⟩ := he; simp_all; exact byte_inj h.2)

/-- **C88.** Whatever the service registry writes, removes and reads, each read gives what was last written to that very
place. -/
theorem C88_registry {V : Type} (as : List (Access RegistrySlot V)) (m : KV Bytes V)
    (rs : List (Option V)) (h : runRaw (fun s => s.loc.raw) KV.empty as = some (m, rs)) : rs = runIdeal KV.empty as := by
  refine faithful (P := fun _ => True) (sch := registrySchema) (good_of (by decide) (by decide)) (fun s => ?_) ?_ as (fun _ _ => trivial) m rs h
  · cases s <;> simp [Loc.In, RegistrySlot.loc, registrySchema]
  · intro s t hs ht he
    cases s <;> cases t <;> simp only [RegistrySlot.loc, Loc.mk.injEq, List.cons.injEq] at he <;>
      first
        | rfl
        | exact absurd he.1 (by decide)
        | (obtain ⟨-, h⟩ := he; simp_all [CcId.ext_iff])

/-- numbers in places are 64 bit numbers -/
def VerifierSlot.Ok : VerifierSlot → Prop
  | .poll n => U64 n
  | _ => True

/-- **C88.** Whatever the voting verifier writes, removes and reads, each read gives what was last written to that very
place. -/
theorem C88_verifier {V : Type} (as : List (Access VerifierSlot V)) (ha : ∀ a ∈ as, a.slot.Ok) (m : KV Bytes V)
    (rs : List (Option V)) (h : runRaw (fun s => s.loc.raw) KV.empty as = some (m, rs)) : rs = runIdeal KV.empty as := by
  refine faithful (P := VerifierSlot.Ok) (sch := verifierSchema) (good_of (by decide) (by decide)) (fun s => ?_) ?_ as ha m rs h
  · cases s <;> simp [Loc.In, VerifierSlot.loc, verifierSchema]
  · intro s t hs ht he
    cases s <;> cases t <;> simp only [VerifierSlot.loc, Loc.mk.injEq, List.cons.injEq] at he <;>
      first
        | rfl
        | exact absurd he.1 (by decide)
        | (obtain ⟨-, h⟩ := he; simp_all; done)
        | (obtain ⟨-, h⟩ := he; simp_all; exact u64_inj hs ht h)
        | (obtain ⟨-, h⟩ := he; simp_all; exact u64_inj hs ht h.1)
        | (obtain ⟨-, h⟩ := he; simp_all; exact u64_inj hs ht h.2)
        | (obtain ⟨-, h⟩ := he; simp_all; exact byte_inj h.2)

/-! ## Keys that can be built -/

theorem prefixedAll_isSome (l : List Bytes) : (prefixedAll l).isSome = true ↔ ∀ b ∈ l, b.length ≤ 65535 := by
  induction l with
  | nil => simp [prefixedAll]
  | cons b t ih =>
    rw [prefixedAll]
    unfold prefixed
    by_cases hb : b.length ≤ 65535
    · rw [if_pos hb]
      cases ht : prefixedAll t with
      | none =>
        rw [ht] at ih
        simp only [Option.isSome_none, Bool.false_eq_true, false_iff] at ih ⊢
        exact fun h => ih (fun b hb => h b (List.mem_cons_of_mem _ hb))
      | some z =>
        rw [ht] at ih
        simp only [Option.isSome_some, true_iff] at ih ⊢
        exact List.forall_mem_cons.mpr ⟨hb, ih⟩
    · rw [if_neg hb]
      simp only [Option.isSome_none, Bool.false_eq_true, false_iff]
      exact fun h => hb (h b (by simp))

/-- **C88.** The key of a place can be built, without a panic, iff all parts of it but the last have at most 65535
bytes. -/
theorem C88_builds (name : Bytes) (parts : List Bytes) (hn : name.length < 256) :
    ((Loc.mk name parts).raw).isSome = true ↔ ∀ b ∈ parts.dropLast, b.length ≤ 65535 := by
  unfold Loc.raw
  cases hz : parts.getLast? with
  | none =>
    have := List.getLast?_eq_none_iff.mp hz
    subst this
    simp
  | some z =>
    have h := prefixedAll_isSome (name :: parts.dropLast)
    rw [List.forall_mem_cons] at h
    have hnn : name.length ≤ 65535 := by omega
    cases hq : prefixedAll (name :: parts.dropLast) with
    | none =>
      rw [hq] at h
      simp only [Option.isSome_none, Bool.false_eq_true, false_iff] at h
      simp only [hq, Option.isSome_none, Bool.false_eq_true, false_iff]
      exact fun hp => h ⟨hnn, hp⟩
    | some q =>
      rw [hq] at h
      simp only [Option.isSome_some, true_iff] at h
      simp only [hq, Option.isSome_some, true_iff]
      exact h.2

/-! ## Ranges -/

theorem prefixedAll_append {s t : List Bytes} {x : Bytes} (h : prefixedAll (s ++ t) = some x) :
    ∃ y z, prefixedAll s = some y ∧ prefixedAll t = some z ∧ x = y ++ z := by
  induction s generalizing x with
  | nil => exact ⟨[], x, rfl, h, rfl⟩
  | cons a s ih =>
    obtain ⟨y, z, h1, h2, rfl⟩ := prefixedAll_cons (show prefixedAll (a :: (s ++ t)) = some x from h)
    obtain ⟨y', z', h3, h4, rfl⟩ := ih h2
    exact ⟨y ++ y', z', by rw [prefixedAll, h1, h3], h4, by rw [List.append_assoc]⟩

/-- the keys with the prefix of a range belong to the entries with these first parts, and the rest of such a key is
the last part of the entry -/
theorem range_exact {S : Schema} (hS : S.Good) {l : Loc} (hl : l.In S) {k : Bytes} (hk : l.raw = some k)
    {name : Bytes} {parts : List Bytes} (hin : (name, parts.length + 1) ∈ S) {q : Bytes}
    (hq : rangePrefix name parts = some q) (w : Bytes) :
    k = q ++ w ↔ l = ⟨name, parts ++ [w]⟩ := by
  constructor
  · intro he
    have hm : (Loc.mk name (parts ++ [w])).raw = some (q ++ w) := by
      unfold Loc.raw
      simp only [List.getLast?_append, List.getLast?_singleton, Option.some_or, List.dropLast_concat]
      rw [show prefixedAll (name :: parts) = some q from hq]
    exact raw_inj hS hl (by simpa [Loc.In] using hin) hk (he ▸ hm)
  · rintro rfl
    unfold Loc.raw at hk
    simp only [List.getLast?_append, List.getLast?_singleton, Option.some_or, List.dropLast_concat] at hk
    rw [show prefixedAll (name :: parts) = some q from hq] at hk
    exact (Option.some.inj hk).symm

/-- **C88.** Going through the signatures of a session meets the signatures of that session and nothing else. -/
theorem C88_session_signatures (s : MultisigSlot) (hs : s.Ok) (n : Nat) (hn : U64 n) (k q w : Bytes)
    (hk : s.loc.raw = some k) (hq : rangePrefix (ascii "signatures") [be 8 n] = some q) :
    k = q ++ w ↔ s = .signature n w := by
  have hg : multisigSchema.Good := good_of (by decide) (by decide)
  have hin : s.loc.In multisigSchema := by cases s <;> simp [Loc.In, MultisigSlot.loc, multisigSchema]
  rw [range_exact hg hin hk (by simp [multisigSchema]) hq w]
  constructor
  · intro h
    cases s <;> simp only [MultisigSlot.loc, Loc.mk.injEq, List.cons.injEq, List.cons_append, List.nil_append] at h <;>
      first | exact absurd h.1 (by decide) | skip
    rw [u64_inj hs hn h.2.1, h.2.2.1]
  · rintro rfl
    rfl

/-- **C88.** Going through the workers of a service for a chain meets exactly those workers. -/
theorem C88_chain_workers (s : RegistrySlot) (service chain : Bytes) (k q w : Bytes) (hk : s.loc.raw = some k)
    (hq : rangePrefix (ascii "workers_per_chain") [service, chain] = some q) :
    k = q ++ w ↔ s = .supports service chain w := by
  have hg : registrySchema.Good := good_of (by decide) (by decide)
  have hin : s.loc.In registrySchema := by cases s <;> simp [Loc.In, RegistrySlot.loc, registrySchema]
  rw [range_exact hg hin hk (by simp [registrySchema]) hq w]
  constructor
  · intro h
    cases s <;> simp only [RegistrySlot.loc, Loc.mk.injEq, List.cons.injEq, List.cons_append, List.nil_append] at h <;>
      first | exact absurd h.1 (by decide) | skip
    rw [h.2.1, h.2.2.1, h.2.2.2.1]
  · rintro rfl
    rfl

/-- **C88.** Looking up the chain of a gateway meets exactly the chains with that gateway. -/
theorem C88_gateway_chains (s : RouterSlot) (gateway : Bytes) (k q w : Bytes) (hk : s.loc.raw = some k)
    (hq : rangePrefix (ascii "gateways") [gateway] = some q) :
    k = q ++ w ↔ s = .byGateway gateway w := by
  have hg : routerSchema.Good := good_of (by decide) (by decide)
  have hin : s.loc.In routerSchema := by cases s <;> simp [Loc.In, RouterSlot.loc, routerSchema]
  rw [range_exact hg hin hk (by simp [routerSchema]) hq w]
  constructor
  · intro h
    cases s <;> simp only [RouterSlot.loc, Loc.mk.injEq, List.cons.injEq, List.cons_append, List.nil_append] at h <;>
      first | exact absurd h.1 (by decide) | skip
    rw [h.2.1, h.2.2.1]
  · rintro rfl
    rfl

/-! ## Concrete cases -/

example : (MultisigSlot.signature 258 (ascii "axelar1")).loc.raw =
    some ([0, 10] ++ ascii "signatures" ++ [0, 8] ++ [0, 0, 0, 0, 0, 0, 1, 2] ++ ascii "axelar1") := by decide

/-- parts are told apart by their lengths -/
example : (RegistrySlot.worker (ascii "ab") (ascii "c")).loc.raw ≠ (RegistrySlot.worker (ascii "a") (ascii "bc")).loc.raw := by
  decide

example : ∃ m, runRaw (fun s : GatewaySlot => s.loc.raw) KV.empty
    [.write (.outgoing ⟨ascii "a", ascii "bc"⟩) 1, .write (.outgoing ⟨ascii "ab", ascii "c"⟩) 2, .write .config 3,
     .read (.outgoing ⟨ascii "a", ascii "bc"⟩), .remove .config, .read .config,
     .read (.outgoing ⟨ascii "ab", ascii "c"⟩)] = some (m, [some 1, none, some 2]) := ⟨_, rfl⟩

example : (MultisigSlot.signature 258 (ascii "axelar1")).Ok ∧ U64 258 := by unfold MultisigSlot.Ok U64; decide

example : (rangePrefix (ascii "workers_per_chain") [ascii "amplifier", ascii "polygon"]).isSome = true := by decide

end Amp.Store
