import Verif.Ampd.EventsSpec
import Mathlib.Data.List.Induction

/-! # Lemmas about published blocks and their consumption -/

namespace Amp.Ampd

variable {R A : Type}

theorem decodeAll_some {f : R → Option A} {l : List R} {as : List A} (h : decodeAll f l = some as) :
    as = l.filterMap f ∧ ∀ r ∈ l, (f r).isSome := by
  induction l generalizing as with
  | nil => simp only [decodeAll, Option.some.injEq] at h; subst h; simp
  | cons r l ih =>
    simp only [decodeAll] at h
    cases hf : f r with
    | none => rw [hf] at h; simp at h
    | some a =>
      rw [hf] at h
      simp only at h
      cases hd : decodeAll f l with
      | none => rw [hd] at h; simp at h
      | some bs =>
        rw [hd] at h
        simp only [Option.some.injEq] at h
        obtain ⟨h1, h2⟩ := ih hd
        subst h
        constructor
        · rw [List.filterMap_cons_some hf, h1]
        · intro x hx
          rcases List.mem_cons.mp hx with rfl | hx
          · rw [hf]; rfl
          · exact h2 x hx

theorem rawEvents_eq (b : BlockResults R) : rawEvents b = contents b := by
  unfold rawEvents contents
  cases b.beginBlock <;> cases b.txs <;> cases b.endBlock <;> simp [flatOpt]

theorem processBlock_spec (W : World R A) (h : Nat) (rep : BlockReply) :
    ((processBlock W h rep).2 = true → (processBlock W h rep).1 = frame W h ∧ Decodable W h) ∧
    (processBlock W h rep).1 <+: frame W h := by
  unfold processBlock
  split
  · exact ⟨fun h => by simp at h, List.nil_prefix⟩
  · rw [rawEvents_eq]
    cases hd : decodeAll W.decode (contents (W.chain h)) with
    | none => exact ⟨fun h => by simp at h, List.nil_prefix⟩
    | some evs =>
      obtain ⟨h1, h2⟩ := decodeAll_some hd
      have hf : (Event.blockBegin h :: (evs.map Event.abci ++ [.blockEnd h])) = frame W h := by
        rw [h1]; rfl
      simp only
      cases rep.sends with
      | none =>
        rw [hf]
        exact ⟨fun _ => ⟨rfl, h2⟩, List.prefix_rfl⟩
      | some k =>
        simp only
        split
        · rw [hf]
          exact ⟨fun h => by simp at h, List.take_prefix _ _⟩
        · rw [hf]
          exact ⟨fun _ => ⟨rfl, h2⟩, List.prefix_rfl⟩

theorem blocks_zero (W : World R A) (s : Nat) : blocks W s 0 = [] := rfl

theorem blocks_succ (W : World R A) (s n : Nat) : blocks W s (n + 1) = frame W s ++ blocks W (s + 1) n := by
  simp [blocks, List.range'_succ]

theorem blocks_append (W : World R A) (s n m : Nat) :
    blocks W s (n + m) = blocks W s n ++ blocks W (s + n) m := by
  induction n generalizing s with
  | zero => simp [blocks_zero]
  | succ n ih =>
    rw [Nat.succ_add, blocks_succ, ih, blocks_succ, List.append_assoc]
    congr 3
    omega

theorem blocks_one (W : World R A) (s : Nat) : blocks W s 1 = frame W s := by
  rw [blocks_succ, blocks_zero, List.append_nil]

/-- `n` full blocks from `s`, then the beginning of the next -/
structure Published (W : World R A) (s n : Nat) (es : List (Event A)) (done : Bool) : Prop where
  ex : ∃ rest, es = blocks W s n ++ rest ∧ rest <+: frame W (s + n) ∧ (done = true → rest = [])
  dec : ∀ h, s ≤ h → h < s + n → Decodable W h

theorem Published.append {W : World R A} {s n m : Nat} {es es' : List (Event A)} {d : Bool}
    (h : Published W s n es true) (h' : Published W (s + n) m es' d) :
    Published W s (n + m) (es ++ es') d := by
  obtain ⟨rest, h1, h2, h3⟩ := h.ex
  obtain ⟨rest', h1', h2', h3'⟩ := h'.ex
  have := h3 rfl
  subst this
  refine ⟨⟨rest', ?_, ?_, h3'⟩, ?_⟩
  · rw [h1, h1', blocks_append, List.append_nil, List.append_assoc]
  · rw [← Nat.add_assoc]; exact h2'
  · intro k hk hk'
    by_cases hlt : k < s + n
    · exact h.dec k hk hlt
    · exact h'.dec k (by omega) (by omega)

theorem processBlocks_spec (W : World R A) (t : Tick) (upTo : Nat) (n h : Nat) (hn : n = upTo + 1 - h) :
    ∃ m, Published W h m (processBlocks W t upTo n h).1 (processBlocks W t upTo n h).2.isSome ∧
      (∀ c, (processBlocks W t upTo n h).2 = some c → h ≤ upTo + 1 → c + 1 = h + m) ∧
      (∀ c, (processBlocks W t upTo n h).2 = some c → upTo + 1 < h → c = upTo ∧ m = 0) ∧ m ≤ n ∧
      ((processBlocks W t upTo n h).2.isSome = false → m < n) ∧
      (∀ c, (processBlocks W t upTo n h).2 = some c → (∀ k, t.cancelled k = false) → m = n) := by
  induction n generalizing h with
  | zero =>
    refine ⟨0, ⟨⟨[], by simp [processBlocks, blocks_zero], List.nil_prefix, fun _ => rfl⟩,
      fun k h1 h2 => by omega⟩, ?_, ?_, le_refl _, ?_, ?_⟩
    · intro c hc hle
      simp only [processBlocks, Option.some.injEq] at hc
      omega
    · intro c hc hlt
      simp only [processBlocks, Option.some.injEq] at hc
      exact ⟨hc.symm, rfl⟩
    · intro hc; simp [processBlocks] at hc
    · intro _ _ _; rfl
  | succ n ih =>
    obtain ⟨hp1, hp2⟩ := processBlock_spec W h (t.block h)
    unfold processBlocks
    cases hx : processBlock W h (t.block h) with
    | mk es ok =>
      rw [hx] at hp1 hp2
      cases ok with
      | false =>
        refine ⟨0, ⟨⟨es, by simp [blocks_zero], hp2, fun h => by simp at h⟩, fun k h1 h2 => by omega⟩,
          ?_, ?_, by omega, fun _ => by omega, ?_⟩
        · intro c hc; simp at hc
        · intro c hc; simp at hc
        · intro c hc; simp at hc
      | true =>
        obtain ⟨he, hdec⟩ := hp1 rfl
        simp only at he
        have hone : Published W h 1 es true :=
          ⟨⟨[], by rw [blocks_one, he, List.append_nil], List.nil_prefix, fun _ => rfl⟩,
            fun k h1 h2 => by have : k = h := by omega
                              subst this; exact hdec⟩
        simp only
        by_cases hc : t.cancelled h = true
        · rw [if_pos hc]
          refine ⟨1, hone, ?_, ?_, by omega, fun h => by simp at h, ?_⟩
          · intro c hc' _; simp only [Option.some.injEq] at hc'; omega
          · intro c hc' hlt; omega
          · intro c _ hall; rw [hall h] at hc; simp at hc
        · rw [if_neg hc]
          obtain ⟨m, hm, hm1, hm2, hm3, hm4, hm5⟩ := ih (h + 1) (by omega)
          refine ⟨1 + m, hone.append hm, ?_, ?_, by omega, ?_, ?_⟩
          · intro c hc' hle
            by_cases hle' : h + 1 ≤ upTo + 1
            · have := hm1 c hc' hle'; omega
            · omega
          · intro c hc' hlt; omega
          · intro hs; have := hm4 hs; omega
          · intro c hs hall; have := hm5 c hs hall; omega

theorem subLoop_spec (W : World R A) (s : Nat) (ts : List Tick) (h : NoRegress s ts) :
    ∃ n, Published W s n (subLoop W s ts).1 (subLoop W s ts).2.isSome ∧
      (∀ c, (subLoop W s ts).2 = some c → c = s + n) ∧
      (∀ k, s ≤ k → k < s + n → ∃ r ∈ reports ts, k ≤ r) ∧
      ((subLoop W s ts).2 = none → (∃ r ∈ reports ts, s + n ≤ r) ∨ (subLoop W s ts).1 = blocks W s n) := by
  induction ts generalizing s with
  | nil =>
    refine ⟨0, ⟨⟨[], rfl, List.nil_prefix, fun _ => rfl⟩, fun k h1 h2 => by omega⟩, ?_, ?_, ?_⟩
    · intro c hc; simp only [subLoop, Option.some.injEq] at hc; omega
    · intro k h1 h2; omega
    · intro hc; simp [subLoop] at hc
  | cons t ts ih =>
    unfold subLoop processBlocksFrom
    cases ht : t.latest with
    | none =>
      refine ⟨0, ⟨⟨[], rfl, List.nil_prefix, fun _ => rfl⟩, fun k h1 h2 => by omega⟩, ?_, ?_, ?_⟩
      · intro c hc; simp at hc
      · intro k h1 h2; omega
      · intro _; exact Or.inr rfl
    | some upTo =>
      have hrep : reports (t :: ts) = upTo :: reports ts := by
        unfold reports; rw [List.filterMap_cons_some ht]
      obtain ⟨hpw, hge⟩ := h
      rw [hrep] at hpw hge ⊢
      have hs : s ≤ upTo + 1 := hge upTo (by simp)
      obtain ⟨m, hm, hm1, _, hm3, hm4, _⟩ := processBlocks_spec W t upTo (upTo + 1 - s) s rfl
      simp only
      cases hx : processBlocks W t upTo (upTo + 1 - s) s with
      | mk es res =>
        rw [hx] at hm hm1 hm4
        cases res with
        | none =>
          refine ⟨m, hm, ?_, ?_, ?_⟩
          · intro c hc; simp at hc
          · intro k h1 h2; exact ⟨upTo, by simp, by omega⟩
          · intro _
            left
            have := hm4 rfl
            exact ⟨upTo, by simp, by omega⟩
        | some c =>
          have hc := hm1 c rfl hs
          have hnr : NoRegress (s + m) ts := by
            refine ⟨(List.pairwise_cons.mp hpw).2, ?_⟩
            intro r hr
            have := (List.pairwise_cons.mp hpw).1 r hr
            omega
          obtain ⟨n, hn, hn1, hn2, hn3⟩ := ih (s + m) hnr
          simp only
          rw [hc]
          refine ⟨m + n, hm.append hn, ?_, ?_, ?_⟩
          · intro c' hc'; have := hn1 c' hc'; omega
          · intro k h1 h2
            by_cases hk : k < s + m
            · exact ⟨upTo, by simp, by omega⟩
            · obtain ⟨r, hr, hkr⟩ := hn2 k (by omega) (by omega)
              exact ⟨r, by simp [hr], hkr⟩
          · intro hnone
            rcases hn3 hnone with ⟨r, hr, hle⟩ | heq
            · left; exact ⟨r, by simp [hr], by omega⟩
            · right
              obtain ⟨rest, h1, _, h3⟩ := hm.ex
              have := h3 rfl
              subst this
              simp only [List.append_nil] at h1
              rw [blocks_append, heq, h1]

theorem prefix_blocks_of_published {W : World R A} {s n : Nat} {es : List (Event A)} {d : Bool}
    (h : Published W s n es d) : es <+: blocks W s (n + 1) := by
  obtain ⟨rest, h1, h2, _⟩ := h.ex
  rw [h1, blocks_append, blocks_one]
  exact (List.prefix_append_right_inj _).mpr h2

/-! ### Handlers -/

/-- the events of a subscription before the first error -/
def okPrefix : List (Item A) → List (Event A)
  | [] => []
  | .lagged :: _ => []
  | .ok e :: is => e :: okPrefix is

theorem okPrefix_stream (rs : List Recv) (es : List (Event A)) : okPrefix (stream rs es) <+: es := by
  induction rs generalizing es with
  | nil => exact List.nil_prefix
  | cons r rs ih =>
    cases r with
    | lag n => exact List.nil_prefix
    | deliver =>
      cases es with
      | nil => exact List.nil_prefix
      | cons e es => exact (List.prefix_cons_inj e).mpr (ih es)

/-- `skip_to_block` on events -/
def eventBegins (height : Nat) : Event A → Bool
  | .blockBegin h => height ≤ h
  | _ => false

theorem beginsAt_ok (height : Nat) (e : Event A) : beginsAt height (.ok e) = eventBegins height e := by
  cases e <;> rfl

theorem okPrefix_skip (height : Nat) (items : List (Item A))
    (h : Item.lagged ∉ items.takeWhile (fun i => !beginsAt height i)) :
    okPrefix (skipToBlock height items) =
      (okPrefix items).dropWhile (fun e => !eventBegins height e) := by
  unfold skipToBlock
  induction items with
  | nil => rfl
  | cons i is ih =>
    cases i with
    | lagged =>
      exfalso
      apply h
      rw [List.takeWhile_cons]
      simp [beginsAt]
    | ok e =>
      simp only [List.takeWhile_cons, List.dropWhile_cons, okPrefix, beginsAt_ok] at h ⊢
      by_cases hb : eventBegins height e = true
      · simp [hb, okPrefix]
      · simp only [hb, Bool.not_false, if_true, List.mem_cons, not_or] at h ⊢
        exact ih h.2

theorem dropWhile_all {α : Type} {p : α → Bool} {l : List α} (h : ∀ x ∈ l, p x = true) :
    l.dropWhile p = [] := by
  induction l with
  | nil => rfl
  | cons a t ih =>
    rw [List.dropWhile_cons, if_pos (h a (by simp))]
    exact ih (fun x hx => h x (by simp [hx]))

theorem dropWhile_append_all {α : Type} {p : α → Bool} {l : List α} (h : ∀ x ∈ l, p x = true)
    (r : List α) : (l ++ r).dropWhile p = r.dropWhile p := by
  induction l with
  | nil => rfl
  | cons a t ih =>
    rw [List.cons_append, List.dropWhile_cons, if_pos (h a (by simp))]
    exact ih (fun x hx => h x (by simp [hx]))

theorem frame_skipped (W : World R A) {s height : Nat} (h : s < height) :
    ∀ e ∈ frame W s, (!eventBegins height e) = true := by
  intro e he
  unfold frame at he
  rcases List.mem_cons.mp he with rfl | he
  · simp [eventBegins]; omega
  · rcases List.mem_append.mp he with he | he
    · obtain ⟨a, _, rfl⟩ := List.mem_map.mp he
      rfl
    · simp only [List.mem_singleton] at he; subst he; rfl

theorem prefix_append_cases {α : Type} {l a b : List α} (h : l <+: a ++ b) :
    l <+: a ∨ ∃ l', l = a ++ l' ∧ l' <+: b := by
  rcases List.prefix_or_prefix_of_prefix h (List.prefix_append a b) with h1 | ⟨l', rfl⟩
  · exact Or.inl h1
  · exact Or.inr ⟨l', rfl, (List.prefix_append_right_inj a).mp h⟩

theorem skip_prefix (W : World R A) (N s height : Nat) (hs : s ≤ height) (es : List (Event A))
    (h : es <+: blocks W s N) :
    es.dropWhile (fun e => !eventBegins height e) <+: blocks W height (N - (height - s)) := by
  induction N generalizing s es with
  | zero =>
    rw [blocks_zero, List.prefix_nil] at h
    subst h
    exact List.nil_prefix
  | succ N ih =>
    rcases Nat.lt_or_ge s height with hlt | hge
    · rw [blocks_succ] at h
      rcases prefix_append_cases h with h | ⟨es', rfl, h'⟩
      · rw [dropWhile_all (fun x hx => frame_skipped W hlt x (h.subset hx))]
        exact List.nil_prefix
      · rw [dropWhile_append_all (frame_skipped W hlt)]
        have := ih (s + 1) hlt es' h'
        rw [show N + 1 - (height - s) = N - (height - (s + 1)) by omega]
        exact this
    · have : s = height := by omega
      subst this
      rw [Nat.sub_self, Nat.sub_zero]
      refine List.IsPrefix.trans ?_ h
      cases es with
      | nil => exact List.nil_prefix
      | cons e es =>
        rw [blocks_succ] at h
        have he : e = .blockBegin s := by
          obtain ⟨t, ht⟩ := h
          simp only [frame, List.cons_append, List.cons.injEq] at ht
          exact ht.1
        subst he
        rw [List.dropWhile_cons, if_neg (by simp [eventBegins])]
        exact List.prefix_rfl

/-- the heights of the end markers -/
def ends : List (Event A) → List Nat
  | [] => []
  | .blockEnd h :: es => h :: ends es
  | _ :: es => ends es

theorem ends_append (a b : List (Event A)) : ends (a ++ b) = ends a ++ ends b := by
  induction a with
  | nil => rfl
  | cons e a ih => cases e <;> simp [ends, ih]

theorem ends_abci (l : List A) : ends (l.map Event.abci) = [] := by
  induction l with
  | nil => rfl
  | cons a l ih => simpa [ends] using ih

theorem ends_frame (W : World R A) (h : Nat) : ends (frame W h) = [h] := by
  unfold frame
  simp only [ends, ends_append, ends_abci, List.nil_append]

theorem ends_prefix_frame (W : World R A) (h : Nat) (es : List (Event A)) (hp : es <+: frame W h) :
    (ends es = [] ∧ es ≠ frame W h) ∨ es = frame W h := by
  obtain ⟨t, ht⟩ := hp
  cases t using List.reverseRecOn with
  | nil => right; simpa using ht
  | append_singleton t x _ =>
    left
    constructor
    · unfold frame at ht
      rw [← List.append_assoc, ← List.cons_append] at ht
      have := (List.append_inj' ht rfl).1
      have h2 : ends (es ++ t) = [] := by
        rw [this]
        simp only [ends, ends_abci]
      rw [ends_append] at h2
      exact (List.append_eq_nil_iff.mp h2).1
    · intro he
      have := congrArg List.length ht
      rw [he] at this
      simp at this

/-- the beginning of a sequence of blocks: full blocks, each with its end marker, then part of one -/
theorem ends_prefix (W : World R A) (N s : Nat) (es : List (Event A)) (h : es <+: blocks W s N) :
    ∃ k, ends es = List.range' s k ∧ blocks W s k <+: es ∧ k ≤ N := by
  induction N generalizing s es with
  | zero =>
    rw [blocks_zero, List.prefix_nil] at h
    subst h
    exact ⟨0, rfl, List.prefix_rfl, le_refl _⟩
  | succ N ih =>
    rw [blocks_succ] at h
    rcases prefix_append_cases h with h | ⟨es', rfl, h'⟩
    · rcases ends_prefix_frame W s es h with ⟨h0, _⟩ | rfl
      · exact ⟨0, h0, List.nil_prefix, by omega⟩
      · exact ⟨1, by rw [ends_frame]; rfl, by rw [blocks_one]; exact List.prefix_rfl, by omega⟩
    · obtain ⟨k, h1, h2, h3⟩ := ih (s + 1) es' h'
      refine ⟨k + 1, ?_, ?_, by omega⟩
      · rw [ends_append, ends_frame, h1, List.range'_succ]; rfl
      · rw [blocks_succ]
        exact (List.prefix_append_right_inj _).mpr h2

theorem consume_spec (items : List (Item A)) (rs : List HandleReply) :
    (consume items rs).1 <+: okPrefix items ∧ (consume items rs).2 <+: ends (consume items rs).1 := by
  induction items generalizing rs with
  | nil => exact ⟨List.prefix_rfl, List.prefix_rfl⟩
  | cons i items ih =>
    cases rs with
    | nil => exact ⟨List.nil_prefix, List.prefix_rfl⟩
    | cons r rs =>
      cases i with
      | lagged => exact ⟨List.prefix_rfl, List.prefix_rfl⟩
      | ok e =>
        have hone : [e] <+: okPrefix (.ok e :: items) :=
          (List.prefix_cons_inj e).mpr List.nil_prefix
        obtain ⟨h1, h2⟩ := ih rs
        cases e with
        | blockBegin h =>
          simp only [consume]
          split
          · exact ⟨hone, List.nil_prefix⟩
          · exact ⟨(List.prefix_cons_inj _).mpr h1, h2⟩
        | abci a =>
          simp only [consume]
          split
          · exact ⟨hone, List.nil_prefix⟩
          · exact ⟨(List.prefix_cons_inj _).mpr h1, h2⟩
        | blockEnd h =>
          simp only [consume]
          split
          · exact ⟨hone, List.nil_prefix⟩
          · split
            · exact ⟨hone, List.nil_prefix⟩
            · split
              · exact ⟨hone, List.prefix_rfl⟩
              · exact ⟨(List.prefix_cons_inj _).mpr h1, (List.prefix_cons_inj h).mpr h2⟩

theorem prefix_range' {s k : Nat} {l : List Nat} (h : l <+: List.range' s k) :
    ∃ j, j ≤ k ∧ l = List.range' s j := by
  induction k generalizing s l with
  | zero =>
    rw [List.range'_zero, List.prefix_nil] at h
    exact ⟨0, le_refl _, h⟩
  | succ k ih =>
    cases l with
    | nil => exact ⟨0, by omega, rfl⟩
    | cons a l =>
      rw [List.range'_succ, List.cons_prefix_cons] at h
      obtain ⟨rfl, h⟩ := h
      obtain ⟨j, hj, rfl⟩ := ih h
      exact ⟨j + 1, by omega, by rw [List.range'_succ]⟩

/-- a handler that is given the beginning of the blocks from `s` acknowledges consecutive blocks from `s`,
all of whose events it has been given -/
theorem consume_blocks (W : World R A) (s N : Nat) (items : List (Item A)) (rs : List HandleReply)
    (h : okPrefix items <+: blocks W s N) :
    ∃ k, (consume items rs).2 = List.range' s k ∧ blocks W s k <+: (consume items rs).1 ∧
      (consume items rs).1 <+: blocks W s N := by
  obtain ⟨h1, h2⟩ := consume_spec items rs
  have h3 := h1.trans h
  obtain ⟨k, hk1, hk2, _⟩ := ends_prefix W N s _ h3
  rw [hk1] at h2
  obtain ⟨j, hj, hj2⟩ := prefix_range' h2
  refine ⟨j, hj2, ?_, h3⟩
  refine List.IsPrefix.trans ?_ hk2
  obtain ⟨d, rfl⟩ := Nat.exists_eq_add_of_le hj
  rw [blocks_append]
  exact List.prefix_append _ _

end Amp.Ampd
