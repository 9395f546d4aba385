import Verif.Encoding.Bcs
import Verif.Encoding.BcsSpec

/-!
# Reading back what the BCS model writes
-/

namespace Amp.Encoding.Bcs

/-- a reader finds `v` in front of whatever follows `e` -/
def Reads {α : Type} (p : Reader α) (e : Bytes) (v : α) : Prop := ∀ rest, p (e ++ rest) = some (v, rest)

theorem reads_uleb {k n : Nat} (hk : 0 < k) (h : n < 128 ^ k) : Reads (readUleb k) (uleb k n) n := by
  induction k generalizing n with
  | zero => omega
  | succ k ih =>
    intro rest
    unfold uleb
    by_cases hn : n < 128
    · rw [if_pos hn]
      simp only [List.cons_append, List.nil_append, readUleb]
      rw [if_pos hn]
    · rw [if_neg hn]
      have hd : n / 128 < 128 ^ k := by
        rw [Nat.div_lt_iff_lt_mul (by omega)]
        rw [pow_succ] at h
        exact h
      have hk' : 0 < k := by
        rcases Nat.eq_zero_or_pos k with rfl | h'
        · simp only [pow_zero] at hd
          have : n / 128 = 0 := by omega
          have := (Nat.div_eq_zero_iff_lt (by omega)).mp this
          omega
        · exact h'
      simp only [List.cons_append, readUleb]
      rw [if_neg (by omega), ih hk' hd rest]
      simp only [Option.some.injEq, Prod.mk.injEq, and_true]
      omega

theorem reads_seqLen {n : Nat} {e : Bytes} (h : seqLen n = .ok e) : Reads (readUleb 5) e n := by
  unfold seqLen at h
  split at h
  · simp at h
  · rename_i hn
    simp only [Except.ok.injEq] at h
    subst h
    apply reads_uleb (by omega)
    unfold maxSeqLen at hn
    omega

theorem reads_N (x : Bytes) : Reads (readN x.length) x x := by
  intro rest
  unfold readN
  rw [if_pos (by simp)]
  simp

theorem reads_LE {k n : Nat} (h : n < 256 ^ k) : Reads (readLE k) (le k n) n := by
  intro rest
  have := reads_N (le k n) rest
  rw [le_length] at this
  unfold readLE
  rw [this]
  simp only [ofLE_le h]

theorem cat_cons_ok {x : Except Err Bytes} {t : List (Except Err Bytes)} {b : Bytes} :
    cat (x :: t) = .ok b ↔ ∃ a c, x = .ok a ∧ cat t = .ok c ∧ b = a ++ c := by
  cases x with
  | error e => simp [cat]
  | ok a =>
    cases hc : cat t with
    | error e => simp [cat, hc]
    | ok c =>
      simp only [cat, hc, Except.ok.injEq]
      constructor
      · rintro rfl
        exact ⟨a, c, rfl, rfl, rfl⟩
      · rintro ⟨a', c', rfl, rfl, rfl⟩
        rfl

theorem cat_nil_ok {b : Bytes} : cat [] = .ok b ↔ b = [] := by
  simp [cat, eq_comm]

theorem reads_bytes {x e : Bytes} (h : bytesB x = .ok e) : Reads readBytes e x := by
  unfold bytesB at h
  obtain ⟨a, c, h1, h2, rfl⟩ := cat_cons_ok.mp h
  obtain ⟨a', c', h3, h4, rfl⟩ := cat_cons_ok.mp h2
  rw [cat_nil_ok] at h4
  subst h4
  simp only [Except.ok.injEq] at h3
  subst h3
  intro rest
  have h5 := reads_seqLen h1 (x ++ rest)
  unfold readBytes
  rw [List.append_nil, List.append_assoc, h5]
  exact reads_N x rest

theorem reads_many {α : Type} {p : Reader α} {f : α → Except Err Bytes} {xs : List α} {e : Bytes}
    (hp : ∀ x ∈ xs, ∀ e, f x = .ok e → Reads p e x) (h : cat (xs.map f) = .ok e) :
    Reads (readMany p xs.length) e xs := by
  induction xs generalizing e with
  | nil =>
    simp only [List.map_nil, cat_nil_ok] at h
    subst h
    intro rest
    rfl
  | cons x t ih =>
    obtain ⟨a, c, h1, h2, rfl⟩ := cat_cons_ok.mp h
    intro rest
    simp only [List.length_cons, readMany]
    rw [List.append_assoc, hp x (by simp) a h1 (c ++ rest)]
    simp only
    rw [ih (fun y hy => hp y (by simp [hy])) h2 rest]

theorem reads_vec {α : Type} {p : Reader α} {f : α → Except Err Bytes} {xs : List α} {e : Bytes}
    (hp : ∀ x ∈ xs, ∀ e, f x = .ok e → Reads p e x) (h : seqB (xs.map f) = .ok e) :
    Reads (readVec p) e xs := by
  unfold seqB at h
  obtain ⟨a, c, h1, h2, rfl⟩ := cat_cons_ok.mp h
  obtain ⟨a', c', h3, h4, rfl⟩ := cat_cons_ok.mp h2
  rw [cat_nil_ok] at h4
  subst h4
  rw [List.length_map] at h1
  intro rest
  unfold readVec
  rw [List.append_nil, List.append_assoc, reads_seqLen h1 (a' ++ rest)]
  exact reads_many hp h3 rest

theorem reads_bytesVec {xs : List Bytes} {e : Bytes} (h : seqB (xs.map bytesB) = .ok e) :
    Reads (readVec readBytes) e xs :=
  reads_vec (fun _ _ _ h' => reads_bytes h') h

theorem reads_leVec {k : Nat} {xs : List Nat} {e : Bytes} (hx : ∀ x ∈ xs, x < 256 ^ k)
    (h : seqB (xs.map (fun w => .ok (le k w))) = .ok e) : Reads (readVec (readLE k)) e xs := by
  refine reads_vec (f := fun w => .ok (le k w)) ?_ h
  intro x hx' e' h'
  simp only [Except.ok.injEq] at h'
  subst h'
  exact reads_LE (hx x hx')

theorem reads_fixedVec {k : Nat} {xs : List Bytes} {e : Bytes} (hx : ∀ x ∈ xs, x.length = k)
    (h : seqB (xs.map .ok) = .ok e) : Reads (readVec (readN k)) e xs := by
  refine reads_vec (f := .ok) ?_ h
  intro x hx' e' h'
  simp only [Except.ok.injEq] at h'
  subst h'
  rw [← hx x hx']
  exact reads_N x

theorem toU64_ok {n m : Nat} (h : toU64 n = .ok m) : m = n ∧ n < 256 ^ 8 := by
  unfold toU64 at h
  split at h
  · rename_i hn
    simp only [Except.ok.injEq] at h
    refine ⟨h.symm, ?_⟩
    have : u64Max < 256 ^ 8 := by decide
    omega
  · simp at h

theorem toU128_ok {n m : Nat} (h : toU128 n = .ok m) : m = n ∧ n < 256 ^ 16 := by
  unfold toU128 at h
  split at h
  · rename_i hn
    simp only [Except.ok.injEq] at h
    refine ⟨h.symm, ?_⟩
    have : u128Max < 256 ^ 16 := by decide
    omega
  · simp at h

theorem mapE_same {α β : Type} {f : α → Except Err β} {g : α → β} {P : β → Prop}
    (hf : ∀ a b, f a = .ok b → b = g a ∧ P b) {l : List α} {r : List β} (h : mapE f l = .ok r) :
    r = l.map g ∧ ∀ b ∈ r, P b := by
  induction l generalizing r with
  | nil => simp only [mapE, Except.ok.injEq] at h; subst h; simp
  | cons a t ih =>
    obtain ⟨b, bs, h1, h2, rfl⟩ := mapE_cons_ok.mp h
    obtain ⟨e1, e2⟩ := ih h2
    obtain ⟨e3, e4⟩ := hf a b h1
    refine ⟨by rw [e1, e3]; rfl, ?_⟩
    intro y hy
    rcases List.mem_cons.mp hy with rfl | hy
    · exact e4
    · exact e2 y hy

theorem expectB_ok {x : Except Err Bytes} {b : Bytes} (h : expectB x = .ok b) : x = .ok b := by
  cases x with
  | ok a => exact h
  | error e => simp [expectB] at h

theorem zipCommands_ok (cs : List Command) :
    zipCommands (cs.map (·.id)) (cs.map (·.ty)) (cs.map (·.params)) = some cs := by
  induction cs with
  | nil => rfl
  | cons c t ih => simp [zipCommands, ih]

theorem commandType_show (t : CommandType) : commandType? (utf8Bytes t.show) = some t := by
  cases t <;> decide

end Amp.Encoding.Bcs
