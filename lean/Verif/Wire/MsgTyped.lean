import Verif.Wire.MsgReads
import Verif.Wire.Format

/-!
# Lemmas for C95: what is read has its type
-/

namespace Amp.Wire

open Amp.Encoding (Bytes)
open Amp.Router (ChainName Lowering CCId Message)
open Amp.Chain (Msg)
open Amp.Ampd (readAll lastWith)

variable {L : Lowering} {T : Texts}

/-! ### Scalars -/

theorem asText_ne {j : Json} {s : Str} (h : asText j = some s) : s ≠ [] := by
  rintro rfl
  unfold asText at h
  split at h
  · simp at h
  · rename_i hn
    exact hn h

theorem asName_valid {j : Json} {c : ChainName} (h : asName L j = some c) : c.Valid L := by
  unfold asName at h
  obtain ⟨s, -, hs⟩ := Option.bind_eq_some_iff.mp h
  unfold ChainName.parse at hs
  split at hs
  · simp at hs
  · rename_i hn
    simp only [Option.some.injEq] at hs
    subst hs
    rw [not_or] at hn
    exact ⟨L.nonempty s hn.2, L.noSep s hn.1, L.idem s⟩

theorem asHex_bytes {j : Json} {b : Bytes} (h : asHex j = some b) : IsBytes b := by
  unfold asHex at h
  obtain ⟨s, -, hs⟩ := Option.bind_eq_some_iff.mp h
  exact ((decodeHex_iff s b).mp hs).1

theorem asHash32_bytes {j : Json} {b : Bytes} (h : asHash32 j = some b) : IsBytes b ∧ b.length = 32 := by
  unfold asHash32 at h
  split at h
  · rename_i b' hb
    split at h
    · rename_i hl
      simp only [Option.some.injEq] at h
      subst h
      exact ⟨asHex_bytes hb, hl⟩
    · simp at h
  · simp at h

theorem asUint_le {max n : Nat} {j : Json} (h : asUint max j = some n) : n ≤ max := by
  unfold asUint at h
  split at h
  · simp at h
  · split at h
    · split at h
      · rename_i hle
        simp only [Option.some.injEq] at h
        omega
      · simp at h
    · simp at h

theorem asNat_le {max n : Nat} {j : Json} (h : asNat max j = some n) : n ≤ max := by
  unfold asNat at h
  split at h
  · split at h
    · simp only [Option.some.injEq] at h
      omega
    · simp at h
  · simp at h

theorem asOption_le {max : Nat} {j : Option Json} {n : Option Nat} (h : asOption (asNat max) j = some n) :
    ∀ k, n = some k → k ≤ max := by
  rintro k rfl
  unfold asOption at h
  split at h
  · simp at h
  · simp at h
  · rw [Option.map_eq_some_iff] at h
    obtain ⟨a, ha, hk⟩ := h
    simp only [Option.some.injEq] at hk
    subst hk
    exact asNat_le ha

/-! ### Combinators -/

theorem readAll_mem {α β : Type} {f : α → Option β} {l : List α} {r : List β} (h : readAll f l = some r) :
    ∀ b ∈ r, ∃ a ∈ l, f a = some b := by
  induction l generalizing r with
  | nil =>
    simp only [readAll, Option.some.injEq] at h
    subst h
    simp
  | cons a t ih =>
    simp only [readAll] at h
    split at h
    · simp at h
    · rename_i b hb
      split at h
      · simp at h
      · rename_i bs hbs
        simp only [Option.some.injEq] at h
        subst h
        intro x hx
        rcases List.mem_cons.mp hx with rfl | hx
        · exact ⟨a, by simp, hb⟩
        · obtain ⟨a', ha', hf⟩ := ih hbs x hx
          exact ⟨a', List.mem_cons_of_mem _ ha', hf⟩

theorem asVec_mem {α : Type} {f : Json → Option α} {j : Json} {l : List α} (h : asVec f j = some l) :
    ∀ a ∈ l, ∃ x, f x = some a := by
  intro a ha
  unfold asVec at h
  split at h
  · obtain ⟨x, -, hx⟩ := readAll_mem h a ha
    exact ⟨x, hx⟩
  · simp at h

theorem one_elim {α : Type} {n : Str} {f : Json → Option α} {j : Json} {x : α} (h : one n f j = some x) :
    ∃ a, f a = some x := by
  unfold one at h
  split at h
  · exact ⟨_, h⟩
  · simp at h

theorem two_elim {α β : Type} {n m : Str} {f : Json → Option α} {g : Json → Option β} {j : Json} {p : α × β}
    (h : two n m f g j = some p) : (∃ a, f a = some p.1) ∧ ∃ b, g b = some p.2 := by
  unfold two at h
  split at h
  · split at h
    · rename_i hf hg
      simp only [Option.some.injEq] at h
      subst h
      exact ⟨⟨_, hf⟩, ⟨_, hg⟩⟩
    · simp at h
  · simp at h

theorem asPair_elim {α β : Type} {f : Json → Option α} {g : Json → Option β} {j : Json} {p : α × β}
    (h : asPair f g j = some p) : (∃ a, f a = some p.1) ∧ ∃ b, g b = some p.2 := by
  unfold asPair at h
  split at h
  · split at h
    · rename_i hf hg
      simp only [Option.some.injEq] at h
      subst h
      exact ⟨⟨_, hf⟩, ⟨_, hg⟩⟩
    · simp at h
  · simp at h

theorem onVariant_elim {α : Type} {k : Str} {f : Json → Option α} {j : Json} {a : α} (h : onVariant k f j = some a) :
    ∃ v, f v = some a := by
  unfold onVariant at h
  split at h
  · split at h
    · exact ⟨_, h⟩
    · simp at h
  · simp at h

theorem onUnit_elim {α : Type} {k : Str} {a b : α} {j : Json} (h : onUnit k a j = some b) : b = a := by
  unfold onUnit at h
  split at h
  · split at h
    · simp only [Option.some.injEq] at h; exact h.symm
    · simp at h
  · simp at h

theorem oneOf_elim {α : Type} {P : α → Prop} {l : List (Json → Option α)} {j : Json} {a : α} (h : oneOf l j = some a)
    (hl : ∀ f ∈ l, f j = some a → P a) : P a := by
  induction l with
  | nil => simp [oneOf] at h
  | cons f t ih =>
    simp only [oneOf] at h
    split at h
    · rename_i b hb
      simp only [Option.some.injEq] at h
      subst h
      exact hl f (by simp) hb
    · exact ih h (fun g hg => hl g (List.mem_cons_of_mem _ hg))

/-! ### Structures -/

theorem asCCId_typed {j : Json} {i : CCId} (h : asCCId L j = some i) : CCIdTyped L i := by
  unfold asCCId at h
  rw [Option.map_eq_some_iff] at h
  obtain ⟨p, hp, rfl⟩ := h
  obtain ⟨⟨a, ha⟩, b, hb⟩ := two_elim hp
  exact ⟨asName_valid ha, asText_ne hb⟩

theorem asMessage_typed {j : Json} {m : Message} (h : asMessage L j = some m) : MessageTyped L m := by
  unfold asMessage at h
  split at h
  · split at h
    · rename_i h1 h2 h3 h4 h5
      simp only [Option.some.injEq] at h
      subst h
      exact ⟨asCCId_typed h1, asText_ne h2, asName_valid h3, asText_ne h4, asHash32_bytes h5⟩
    · simp at h
  · simp at h

theorem asMessages_typed {j : Json} {ms : List Message} (h : asVec (asMessage L) j = some ms) :
    ∀ m ∈ ms, MessageTyped L m := by
  intro m hm
  obtain ⟨x, hx⟩ := asVec_mem h m hm
  exact asMessage_typed hx

theorem asOperators_fit {j : Json} {o : Std.Operators} (h : asOperators j = some o) : OperatorsFit o := by
  unfold asOperators at h
  rw [Option.map_eq_some_iff] at h
  obtain ⟨p, hp, rfl⟩ := h
  obtain ⟨⟨a, ha⟩, b, hb⟩ := two_elim hp
  refine ⟨fun q hq => ?_, fun q hq => ?_, asUint_le hb⟩
  · obtain ⟨x, hx⟩ := asVec_mem ha q hq
    obtain ⟨⟨y, hy⟩, -⟩ := asPair_elim hx
    exact asHex_bytes hy
  · obtain ⟨x, hx⟩ := asVec_mem ha q hq
    obtain ⟨-, y, hy⟩ := asPair_elim hx
    exact asUint_le hy

theorem asBytes_typed {j : Json} {b : Bytes} (h : asVec (asNat 255) j = some b) : IsBytes b := by
  intro n hn
  obtain ⟨x, hx⟩ := asVec_mem h n hn
  have := asNat_le hx
  omega

theorem asNexusMsg_typed {j : Json} {n : Nexus.NexusMsg} (h : asNexusMsg L j = some n) : NexusTyped L n := by
  unfold asNexusMsg at h
  split at h
  · split at h
    · rename_i h1 h2 h3 h4 h5 h6 h7
      simp only [Option.some.injEq] at h
      subst h
      refine ⟨asName_valid h1, asText_ne h2, asName_valid h3, asText_ne h4, ?_, ?_, ?_, asNat_le h7⟩
      · unfold asBytes32 at h5
        split at h5
        · rename_i b hb
          split at h5
          · rename_i hl
            simp only [Option.some.injEq] at h5
            subst h5
            exact ⟨asBytes_typed hb, hl⟩
          · simp at h5
        · simp at h5
      · unfold asSomeBytes at h6
        split at h6
        · simp at h6
        · rename_i hn
          rintro rfl
          exact hn h6
      · unfold asSomeBytes at h6
        split at h6
        · simp at h6
        · exact asBytes_typed h6
    · simp at h
  · simp at h

theorem asService_typed {j : Json} {p : Str × Registry.Service} (h : asService T j = some p) :
    p.2.minBond ≤ u128Max ∧ p.2.unbondingDays ≤ u16Max := by
  unfold asService at h
  split at h
  · split at h
    · rename_i h1 h2 h3 h4 h5 h6 h7 h8
      simp only [Option.some.injEq] at h
      subst h
      exact ⟨asUint_le h5, asNat_le h7⟩
    · simp at h
  · simp at h

theorem asThreshold_typed {j : Json} {t : Std.Threshold} (h : asThreshold j = some t) :
    0 < t.num ∧ t.num ≤ t.den ∧ t.den ≤ u64Max := by
  unfold asThreshold at h
  split at h
  · rename_i n d hp
    obtain ⟨-, y, hy⟩ := asPair_elim hp
    have := asUint_le hy
    split at h
    · rename_i t' ht
      simp only [Option.some.injEq] at h
      subst h
      unfold Std.Threshold.tryFrom at ht
      split at ht
      · simp at ht
      · split at ht
        · simp at ht
        · split at ht
          · simp at ht
          · simp only [Except.ok.injEq] at ht
            subst ht
            dsimp only at this ⊢
            omega
    · simp at h
  · simp at h

theorem asNonZero_typed {max n : Nat} {j : Json} (h : asNonZero max j = some n) : 0 < n ∧ n ≤ max := by
  unfold asNonZero at h
  split at h
  · rename_i k hk
    split at h
    · simp at h
    · simp only [Option.some.injEq] at h
      subst h
      exact ⟨by omega, asUint_le hk⟩
  · simp at h

theorem asParams_typed {j : Json} {p : Rewards.Params} (h : asParams j = some p) : (0 < p.duration ∧ p.duration ≤ u64Max) ∧
    p.rewards ≤ u128Max ∧ 0 < p.threshold.num ∧ p.threshold.num ≤ p.threshold.den ∧ p.threshold.den ≤ u64Max := by
  unfold asParams at h
  split at h
  · split at h
    · rename_i h1 h2 h3
      simp only [Option.some.injEq] at h
      subst h
      exact ⟨asNonZero_typed h1, asUint_le h2, asThreshold_typed h3⟩
    · simp at h
  · simp at h

theorem asRawKey_bytes {j : Json} {k : Multisig.KeyType × Bytes} (h : asRawKey j = some k) : IsBytes k.2 := by
  refine oneOf_elim (P := fun k : Multisig.KeyType × Bytes => IsBytes k.2) h (fun f hf hk => ?_)
  simp only [List.mem_cons, List.not_mem_nil, or_false] at hf
  rcases hf with rfl | rfl <;>
  · obtain ⟨v, hv⟩ := onVariant_elim hk
    obtain ⟨b, hb, rfl⟩ := Option.map_eq_some_iff.mp hv
    exact asHex_bytes hb

theorem asRawSet_typed {j : Json} {ws : Multisig.RawWorkerSet} (h : asRawSet T j = some ws) : SetTyped ws := by
  unfold asRawSet at h
  split at h
  · split at h
    · rename_i h1 h2 h3
      simp only [Option.some.injEq] at h
      subst h
      refine ⟨fun e he => ?_, asUint_le h2, asNat_le h3⟩
      unfold asSigners at h1
      split at h1
      · obtain ⟨x, -, hx⟩ := readAll_mem h1 e he
        unfold asSignerEntry at hx
        split at hx
        · rename_i hs
          simp only [Option.some.injEq] at hx
          subst hx
          unfold asSigner at hs
          split at hs
          · split at hs
            · rename_i g1 g2 g3
              simp only [Option.some.injEq] at hs
              subst hs
              exact ⟨asUint_le g2, asRawKey_bytes g3⟩
            · simp at hs
          · simp at hs
        · simp at hx
      · simp at h1
    · simp at h
  · simp at h

/-! ### Messages -/

theorem readVerifier_typed {j : Json} {m : VV.Msg} (h : readVerifier L j = some m) : Typed L (.verifier m) := by
  refine oneOf_elim (P := fun m => Typed L (.verifier m)) h (fun f hf hk => ?_)
  simp only [List.mem_cons, List.not_mem_nil, or_false] at hf
  rcases hf with rfl | rfl | rfl | rfl
  all_goals
    obtain ⟨v, hv⟩ := onVariant_elim hk
    obtain ⟨b, hb, rfl⟩ := Option.map_eq_some_iff.mp hv
  · obtain ⟨a, ha⟩ := one_elim hb; exact asUint_le ha
  · obtain ⟨⟨a, ha⟩, -⟩ := two_elim hb; exact asUint_le ha
  · obtain ⟨a, ha⟩ := one_elim hb; exact asMessages_typed ha
  · obtain ⟨⟨a, ha⟩, c, hc⟩ := two_elim hb; exact ⟨asText_ne ha, asOperators_fit hc⟩

theorem readGateway_typed {j : Json} {m : Gateway.Msg} (h : readGateway L j = some m) : Typed L (.gateway m) := by
  refine oneOf_elim (P := fun m => Typed L (.gateway m)) h (fun f hf hk => ?_)
  simp only [List.mem_cons, List.not_mem_nil, or_false] at hf
  rcases hf with rfl | rfl
  all_goals
    obtain ⟨v, hv⟩ := onVariant_elim hk
    obtain ⟨b, hb, rfl⟩ := Option.map_eq_some_iff.mp hv
    exact asMessages_typed hb

theorem readRouter_typed {j : Json} {m : Router.Msg} (h : readRouter L T j = some m) : Typed L (.router m) := by
  refine oneOf_elim (P := fun m => Typed L (.router m)) h (fun f hf hk => ?_)
  simp only [List.mem_cons, List.not_mem_nil, or_false] at hf
  rcases hf with rfl | rfl | rfl | rfl | rfl
  all_goals
    obtain ⟨v, hv⟩ := onVariant_elim hk
    obtain ⟨b, hb, rfl⟩ := Option.map_eq_some_iff.mp hv
  · obtain ⟨⟨a, ha⟩, -⟩ := two_elim hb; exact asName_valid ha
  · obtain ⟨⟨a, ha⟩, -⟩ := two_elim hb; exact asName_valid ha
  · obtain ⟨⟨a, ha⟩, -⟩ := two_elim hb; exact asName_valid ha
  · obtain ⟨⟨a, ha⟩, -⟩ := two_elim hb; exact asName_valid ha
  · exact asMessages_typed hb

theorem readNexus_typed {j : Json} {m : Nexus.Msg} (h : readNexus L j = some m) : Typed L (.nexus m) := by
  refine oneOf_elim (P := fun m => Typed L (.nexus m)) h (fun f hf hk => ?_)
  simp only [List.mem_cons, List.not_mem_nil, or_false] at hf
  rcases hf with rfl | rfl
  all_goals
    obtain ⟨v, hv⟩ := onVariant_elim hk
    obtain ⟨b, hb, rfl⟩ := Option.map_eq_some_iff.mp hv
  · exact asMessages_typed hb
  · intro n hn
    obtain ⟨x, hx⟩ := asVec_mem hb n hn
    exact asNexusMsg_typed hx

theorem readRegistry_typed {j : Json} {m : Registry.Msg} (h : readRegistry L T j = some m) : Typed L (.registry m) := by
  refine oneOf_elim (P := fun m => Typed L (.registry m)) h (fun f hf hk => ?_)
  simp only [List.mem_cons, List.not_mem_nil, or_false] at hf
  rcases hf with rfl | rfl | rfl | rfl | rfl | rfl | rfl
  all_goals
    obtain ⟨v, hv⟩ := onVariant_elim hk
    obtain ⟨b, hb, rfl⟩ := Option.map_eq_some_iff.mp hv
  · exact asService_typed hb
  · trivial
  · trivial
  · obtain ⟨-, c, hc⟩ := two_elim hb
    intro x hx
    obtain ⟨y, hy⟩ := asVec_mem hc x hx
    exact asName_valid hy
  · trivial
  · trivial
  · trivial

theorem readRewards_typed {j : Json} {m : Rewards.Msg} (h : readRewards T j = some m) : Typed L (.rewards m) := by
  refine oneOf_elim (P := fun m => Typed L (.rewards m)) h (fun f hf hk => ?_)
  simp only [List.mem_cons, List.not_mem_nil, or_false] at hf
  rcases hf with rfl | rfl | rfl | rfl
  all_goals
    obtain ⟨v, hv⟩ := onVariant_elim hk
    obtain ⟨b, hb, rfl⟩ := Option.map_eq_some_iff.mp hv
  · obtain ⟨⟨a, ha⟩, -⟩ := two_elim hb; exact asText_ne ha
  · unfold asDistribute at hb
    split at hb
    · split at hb
      · rename_i h1 h2
        simp only [Option.some.injEq] at hb
        subst hb
        exact asOption_le h2
      · simp at hb
    · simp at hb
  · trivial
  · obtain ⟨a, ha⟩ := one_elim hb; exact asParams_typed ha

theorem readMultisig_typed {j : Json} {m : Multisig.Msg} (h : readMultisig L T j = some m) : Typed L (.multisig m) := by
  refine oneOf_elim (P := fun m => Typed L (.multisig m)) h (fun f hf hk => ?_)
  simp only [List.mem_cons, List.not_mem_nil, or_false] at hf
  rcases hf with rfl | rfl | rfl | rfl | rfl | rfl
  all_goals
    obtain ⟨v, hv⟩ := onVariant_elim hk
  · unfold asStart at hv
    split at hv
    · split at hv
      · rename_i h1 h2 h3 h4
        simp only [Option.some.injEq] at hv
        subst hv
        exact ⟨asHex_bytes h2, asName_valid h3⟩
      · simp at hv
    · simp at hv
  all_goals obtain ⟨b, hb, rfl⟩ := Option.map_eq_some_iff.mp hv
  · obtain ⟨⟨a, ha⟩, c, hc⟩ := two_elim hb; exact ⟨asUint_le ha, asHex_bytes hc⟩
  · obtain ⟨a, ha⟩ := one_elim hb; exact asRawSet_typed ha
  · obtain ⟨a, ha⟩ := one_elim hb; exact asRawKey_bytes ha
  · trivial
  · trivial

theorem readProver_typed {j : Json} {m : Prover.Msg} (h : readProver L j = some m) : Typed L (.prover m) := by
  refine oneOf_elim (P := fun m => Typed L (.prover m)) h (fun f hf hk => ?_)
  simp only [List.mem_cons, List.not_mem_nil, or_false] at hf
  rcases hf with rfl | rfl | rfl
  · obtain ⟨v, hv⟩ := onVariant_elim hk
    obtain ⟨b, hb, rfl⟩ := Option.map_eq_some_iff.mp hv
    obtain ⟨a, ha⟩ := one_elim hb
    intro i hi
    obtain ⟨x, hx⟩ := asVec_mem ha i hi
    exact asCCId_typed hx
  · rw [onUnit_elim hk]; trivial
  · rw [onUnit_elim hk]; trivial

theorem readAs_typed {p : Party} {j : Json} {m : Msg} (h : readAs L T p j = some m) : Typed L m := by
  cases p <;> obtain ⟨x, hx, rfl⟩ := Option.map_eq_some_iff.mp h
  · exact readVerifier_typed hx
  · have := readGateway_typed hx; cases x <;> exact this
  · have := readRouter_typed hx; cases x <;> exact this
  · have := readNexus_typed hx; cases x <;> exact this
  · exact readRegistry_typed hx
  · exact readRewards_typed hx
  · exact readMultisig_typed hx
  · exact readProver_typed hx

/-- what a contract reads, it understands as it is -/
theorem understood_readAs {p : Party} {j : Json} {m : Msg} (h : readAs L T p j = some m) : understood p m = some m := by
  cases p <;> obtain ⟨x, hx, rfl⟩ := Option.map_eq_some_iff.mp h <;> cases x <;> rfl

end Amp.Wire
