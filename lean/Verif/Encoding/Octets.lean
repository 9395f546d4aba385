import Verif.Encoding.Abi
import Verif.Encoding.Bcs
import Verif.Encoding.Sort

/-!
# Lemmas for C98: encodings are bytes
-/

namespace Amp.Encoding

open Amp.Multisig (WorkerSet)

theorem isBytes_nil : IsBytes [] := fun _ h => (List.not_mem_nil h).elim

theorem isBytes_append {a b : Bytes} (ha : IsBytes a) (hb : IsBytes b) : IsBytes (a ++ b) := fun x hx =>
  (List.mem_append.mp hx).elim (ha x) (hb x)

theorem isBytes_zeros (n : Nat) : IsBytes (List.replicate n 0) := fun x hx => by
  rw [List.eq_of_mem_replicate hx]; decide

theorem isBytes_drop {b : Bytes} (h : IsBytes b) (n : Nat) : IsBytes (b.drop n) := fun x hx => h x (List.mem_of_mem_drop hx)

theorem le_isBytes (k n : Nat) : IsBytes (le k n) := by
  induction k generalizing n with
  | zero => exact isBytes_nil
  | succ k ih =>
    intro x hx
    rcases List.mem_cons.mp hx with rfl | hx
    · omega
    · exact ih _ x hx

namespace Abi

theorem pad32_isBytes {b : Bytes} (h : IsBytes b) : IsBytes (pad32 b) := isBytes_append h (isBytes_zeros _)

/-- bytes inside are bytes -/
def Mediate.Octets : Mediate → Prop
  | .raw b => IsBytes b
  | .dyn b => IsBytes b

/-- bytes inside are bytes -/
def Elem.Octets : Elem → Prop
  | .address b => IsBytes b
  | .uint _ => True
  | .fixedBytes b => IsBytes b
  | .bytes b => IsBytes b

/-- bytes inside are bytes -/
def Token.Octets : Token → Prop
  | .elem e => e.Octets
  | .array es => ∀ e ∈ es, e.Octets

theorem heads_isBytes {ms : List Mediate} (h : ∀ m ∈ ms, m.Octets) (off : Nat) : IsBytes (heads off ms) := by
  induction ms generalizing off with
  | nil => exact isBytes_nil
  | cons m t ih =>
    have ht := ih (fun x hx => h x (List.mem_cons_of_mem _ hx))
    have hm := h m (List.mem_cons_self ..)
    cases m with
    | raw b => exact isBytes_append hm (ht _)
    | dyn b => exact isBytes_append (be_isBytes _ _) (ht _)

theorem tails_isBytes {ms : List Mediate} (h : ∀ m ∈ ms, m.Octets) : IsBytes (tails ms) := by
  induction ms with
  | nil => exact isBytes_nil
  | cons m t ih =>
    have ht := ih (fun x hx => h x (List.mem_cons_of_mem _ hx))
    have hm := h m (List.mem_cons_self ..)
    cases m with
    | raw b => exact ht
    | dyn b => exact isBytes_append hm ht

theorem headTail_isBytes {ms : List Mediate} (h : ∀ m ∈ ms, m.Octets) : IsBytes (headTail ms) :=
  isBytes_append (heads_isBytes h _) (tails_isBytes h)

theorem elem_octets {e : Elem} (h : e.Octets) : e.mediate.Octets := by
  cases e with
  | address b => exact isBytes_append (isBytes_zeros _) h
  | uint n => exact be_isBytes _ _
  | fixedBytes b => exact pad32_isBytes h
  | bytes b => exact isBytes_append (be_isBytes _ _) (pad32_isBytes h)

theorem token_octets {t : Token} (h : t.Octets) : t.mediate.Octets := by
  cases t with
  | elem e => exact elem_octets h
  | array es =>
    refine isBytes_append (be_isBytes _ _) (headTail_isBytes ?_)
    intro m hm
    obtain ⟨e, he, rfl⟩ := List.mem_map.mp hm
    exact elem_octets (h e he)

theorem ethabi_isBytes {ts : List Token} (h : ∀ t ∈ ts, t.Octets) {b : Bytes} (hb : ethabiEncode ts = .ok b) : IsBytes b := by
  unfold ethabiEncode at hb
  split at hb
  · simp only [Except.ok.injEq] at hb
    rw [← hb]
    refine headTail_isBytes ?_
    intro m hm
    obtain ⟨e, he, rfl⟩ := List.mem_map.mp hm
    exact token_octets (h e he)
  · simp at hb

theorem commandParams_isBytes {X : Ext} (hP : ∀ s b, X.parseH160 s = some b → IsBytes b) {c s d : Str} {h b : Bytes}
    (hh : IsBytes h) (hb : commandParams X c s d h = .ok b) : IsBytes b := by
  unfold commandParams at hb
  split at hb
  · simp at hb
  rename_i dst hd
  refine ethabi_isBytes ?_ hb
  intro t ht
  simp only [List.mem_cons, List.not_mem_nil, or_false] at ht
  rcases ht with rfl | rfl | rfl | rfl | rfl | rfl
  · exact utf8Bytes_isBytes _
  · exact utf8Bytes_isBytes _
  · exact hP _ _ hd
  · exact hh
  · exact isBytes_nil
  · trivial

theorem transfer_isBytes {X : Ext} (hX : ∀ b, IsBytes (X.keccak b)) {ws : WorkerSet} {b : Bytes}
    (hb : transferOperatorshipParams X ws = .ok b) : IsBytes b := by
  unfold transferOperatorshipParams at hb
  split at hb
  · simp at hb
  rename_i l hl
  dsimp only at hb
  split at hb
  · simp at hb
  rename_i as has
  have hl' : ∀ p ∈ l, IsBytes p.1 := by
    intro p hp
    obtain ⟨e, _, hep⟩ := mapE_mem_right hl hp
    split at hep
    · simp at hep
    rename_i a ha
    simp only [Except.ok.injEq] at hep
    rw [← hep]
    unfold evmAddress at ha
    split at ha
    · simp at ha
    simp only [Except.ok.injEq] at ha
    rw [← ha]
    exact isBytes_drop (hX _) _
  refine ethabi_isBytes ?_ hb
  intro t ht
  simp only [List.mem_cons, List.not_mem_nil, or_false] at ht
  rcases ht with rfl | rfl | rfl
  · intro e he
    obtain ⟨o, ho, hoe⟩ := mapE_mem_right has he
    unfold addressTok at hoe
    split at hoe
    · simp only [Except.ok.injEq] at hoe
      rw [← hoe]
      exact hl' o ((sortByAddr_perm l).mem_iff.mp ho)
    · simp at hoe
  · intro e he
    obtain ⟨o, _, rfl⟩ := List.mem_map.mp he
    trivial
  · trivial

end Abi

namespace Bcs

theorem uleb_isBytes (k n : Nat) : IsBytes (uleb k n) := by
  induction k generalizing n with
  | zero => exact isBytes_nil
  | succ k ih =>
    unfold uleb
    split
    · intro x hx
      simp only [List.mem_singleton] at hx
      omega
    · intro x hx
      rcases List.mem_cons.mp hx with rfl | hx
      · omega
      · exact ih _ x hx

/-- a result that is bytes -/
def Octets (x : Except Err Bytes) : Prop := ∀ b, x = .ok b → IsBytes b

theorem octets_ok {b : Bytes} (h : IsBytes b) : Octets (.ok b) := fun x hx => by
  simp only [Except.ok.injEq] at hx; rw [← hx]; exact h

theorem seqLen_octets (n : Nat) : Octets (seqLen n) := by
  intro b hb
  unfold seqLen at hb
  split at hb
  · simp at hb
  · simp only [Except.ok.injEq] at hb
    rw [← hb]; exact uleb_isBytes _ _

theorem cat_octets {l : List (Except Err Bytes)} (h : ∀ x ∈ l, Octets x) : Octets (cat l) := by
  induction l with
  | nil => exact octets_ok isBytes_nil
  | cons x t ih =>
    have ht := ih (fun y hy => h y (List.mem_cons_of_mem _ hy))
    have hx := h x (List.mem_cons_self ..)
    intro b hb
    unfold cat at hb
    split at hb
    · simp at hb
    split at hb
    · simp at hb
    rename_i a _ c hc
    simp only [Except.ok.injEq] at hb
    rw [← hb]
    exact isBytes_append (hx a rfl) (ht c hc)

theorem bytesB_octets {b : Bytes} (h : IsBytes b) : Octets (bytesB b) := cat_octets (by
  intro x hx
  simp only [List.mem_cons, List.not_mem_nil, or_false] at hx
  rcases hx with rfl | rfl
  · exact seqLen_octets _
  · exact octets_ok h)

theorem seqB_octets {l : List (Except Err Bytes)} (h : ∀ x ∈ l, Octets x) : Octets (seqB l) := cat_octets (by
  intro x hx
  simp only [List.mem_cons, List.not_mem_nil, or_false] at hx
  rcases hx with rfl | rfl
  · exact seqLen_octets _
  · exact cat_octets h)

theorem expectB_octets {x : Except Err Bytes} (h : Octets x) : Octets (expectB x) := by
  intro b hb
  unfold expectB at hb
  split at hb
  · rename_i c
    simp only [Except.ok.injEq] at hb
    rw [← hb]; exact h c rfl
  · simp at hb

theorem commandParams_isBytes {c s d : Str} {h b : Bytes} (hh : IsBytes h) (hb : commandParams c s d h = .ok b) :
    IsBytes b := by
  unfold commandParams at hb
  split at hb
  · simp at hb
  rename_i dst hd
  split at hb
  · refine expectB_octets (cat_octets ?_) b hb
    intro x hx
    simp only [List.mem_cons, List.not_mem_nil, or_false] at hx
    rcases hx with rfl | rfl | rfl | rfl
    · exact bytesB_octets (utf8Bytes_isBytes _)
    · exact bytesB_octets (utf8Bytes_isBytes _)
    · exact octets_ok (decodeHex_isBytes hd)
    · exact bytesB_octets hh
  · simp at hb

theorem transfer_isBytes {ws : WorkerSet} (hk : ∀ e ∈ ws.signers, IsBytes e.2.pubKey.bytes) {b : Bytes}
    (hb : transferOperatorshipParams ws = .ok b) : IsBytes b := by
  unfold transferOperatorshipParams at hb
  dsimp only at hb
  split at hb
  · simp at hb
  split at hb
  · simp at hb
  refine cat_octets ?_ b hb
  intro x hx
  simp only [List.mem_cons, List.not_mem_nil, or_false] at hx
  rcases hx with rfl | rfl | rfl
  · refine seqB_octets ?_
    intro y hy
    obtain ⟨o, ho, rfl⟩ := List.mem_map.mp hy
    obtain ⟨e, he, rfl⟩ := List.mem_map.mp ((sortByAddr_perm _).mem_iff.mp ho)
    exact bytesB_octets (hk e he)
  · refine seqB_octets ?_
    intro y hy
    obtain ⟨o, _, rfl⟩ := List.mem_map.mp hy
    exact octets_ok (le_isBytes _ _)
  · exact octets_ok (le_isBytes _ _)

end Bcs

end Amp.Encoding
