import Verif.Wire.StoredRun
import Verif.Wire.StoredReads
import Verif.Wire.MsgProps

/-!
# C98: what contracts store is in range and is loaded as it was stored
-/

namespace Amp.Wire

open Amp.Chain (Params Setup Store)

variable {G : Texture} {P : Params} {setup : Setup}

/-! ### Helper lemmas -/

/-- a value in range is loaded again from a place of its type -/
theorem load_json (hG : Sound G) {s : Store} {k : Slot} {v : Value} (hv : stored s k = some v) (h : v.InRange G.L) :
    load G k (v.json G).render = some v := by
  have hT := hG.faithful
  rw [load, fromStr_render G.finite (fits_value hG.unread h), Option.bind_some]
  cases s <;> cases k <;> simp only [stored, Option.map_eq_some_iff, Option.bind_eq_some_iff, reduceCtorEq, Option.some.injEq] at hv
  all_goals
    first
    | subst hv
    | obtain ⟨x, _, rfl⟩ := hv
    | obtain ⟨x, _, y, _, rfl⟩ := hv
  all_goals simp only [Slot.read, Value.json]
  · rw [asUint_jsonUint (max := u64Max) h]; rfl
  · rw [asStoredPoll_json hT h]; rfl
  · rw [asContent_json (asMessage_json h.1) h.2]; rfl
  · rw [asContent_json (asOperators_json h.1) h.2]; rfl
  · rw [asMessage_json h]; rfl
  · rw [asEndpoint_json hT h]; rfl
  · rfl
  · rw [asStoredService_json hT hG.unread h]; rfl
  · rw [asWorker_json hT h]; rfl
  · rfl
  · rw [asStoredParams_json h.1 h.2]; rfl
  · rw [asTally_perm hT _ h (List.Perm.refl _)]; rfl
  · rw [asRewardEvent_json hT _ h]; rfl
  · rw [asPool_json hT _ h]; rfl
  · rw [asNat_nat (max := u64Max) h]; rfl
  · rw [asUint_jsonUint (max := u64Max) h]; rfl
  · rw [asSigningSession_json h]; rfl
  · rw [asSignature_json h]; rfl
  · rw [asWorkerSet_json hT h.1 h.2]; rfl
  · rw [asHex_jsonHex h]; rfl
  · rfl
  · rw [asBatch_json h]; rfl
  · rw [asHex_jsonHex h]; rfl
  · rw [asHex_jsonHex h]; rfl
  · rw [asWorkerSet_json hT h.1 h.2]; rfl
  · rw [asWorkerSet_json hT h.1 h.2]; rfl

/-! ### C98 -/

/-- C98: in every history of transactions with arbitrary texts, whatever a contract has stored is a value of its Rust type:
numbers are in range, so that none was cut off, binary data are bytes, chain names valid and texts that may not be empty not
empty. -/
theorem C98_range (hG : Sound G) (hX : Octets P.X) (hs : SetupTyped G.L setup) (hr : SetupInRange setup) (ts : List TextTx)
    (hb : ∀ t ∈ ts, InRange t) (a : Addr) (s : Store) (ha : textWorldAfter G P setup ts a = some s) (k : Slot) (v : Value)
    (hv : stored s k = some v) : v.InRange G.L :=
  (history_fits hG hX (forall₂_map ts (fun t ht => says_meaning t (hb t ht))) (parties_genesis setup) (typed_genesis hs)
    (fits_genesis hr) hb a s ha).1 k v hv

/-- C98: and the text kept at a place is there if and only if there is a value, and is loaded as that value. -/
theorem C98_load (hG : Sound G) (hX : Octets P.X) (hs : SetupTyped G.L setup) (hr : SetupInRange setup) (ts : List TextTx)
    (hb : ∀ t ∈ ts, InRange t) (a : Addr) (s : Store) (ha : textWorldAfter G P setup ts a = some s) (k : Slot) :
    (kept G s k).map (load G k) = (stored s k).map some := by
  unfold kept
  cases hv : stored s k with
  | none => rfl
  | some v => exact congrArg some (load_json hG hv (C98_range hG hX hs hr ts hb a s ha k v hv))

/-- C98: a tally of rewards is loaded as the same, in whatever order the participants were written. -/
theorem C98_hash_order (hG : Sound G) (hX : Octets P.X) (hs : SetupTyped G.L setup) (hr : SetupInRange setup) (ts : List TextTx)
    (hb : ∀ t ∈ ts, InRange t) (a : Addr) (s : Store) (ha : textWorldAfter G P setup ts a = some s) (c : Addr) (n : Nat)
    (t : Rewards.Tally) (hv : stored s (.tally c n) = some (.tally c t)) (l : List (Addr × Nat))
    (hl : List.Perm l t.participation) :
    load G (.tally c n) (jsonTally G.T c { t with participation := l }).render = some (.tally c t) := by
  have h : TallyInRange t := C98_range hG hX hs hr ts hb a s ha _ _ hv
  rw [load, fromStr_render G.finite (fits_tally c h hl), Option.bind_some, Slot.read, asTally_perm hG.faithful c h hl]
  rfl

end Amp.Wire
