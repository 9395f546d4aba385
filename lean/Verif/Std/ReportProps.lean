import Verif.Std.Report

/-!
# C103: what is shown of an error
-/

namespace Amp.Report

/-! ## Specification -/

/-- the errors in an error shown, each followed by its cause -/
def LoggableError.entries : LoggableError → List Entry
  | .mk m a l none b => [⟨m, a, l, b⟩]
  | .mk m a l (some c) b => ⟨m, a, l, b⟩ :: c.entries

/-- add a note to the first error -/
def noted (n : Str) : List Entry → List Entry
  | [] => []
  | e :: l => { e with attachments := e.attachments ++ [n] } :: l

/-- what should be told of a report, last error first: every error with its own notes, in the order in which
they were made, and the place where it arose -/
def History.told : History → List Entry
  | .start c loc b => [⟨c, [], loc, b⟩]
  | .attach h n => noted (n.getD "opaque attachment".toList) h.told
  | .change h c loc => ⟨c, [], loc, none⟩ :: h.told
  | .join h o => h.told ++ o.told

/-- one error as text: the message, and the notes in brackets -/
def Entry.text (debug : Str → Str) (e : Entry) : Str :=
  if e.attachments = [] then e.msg
  else e.msg ++ " (".toList ++ List.intercalate ", ".toList (e.attachments.map debug) ++ ")".toList

/-- no two reports were joined -/
def History.Single : History → Prop
  | .start .. => True
  | .attach h _ => h.Single
  | .change h _ _ => h.Single
  | .join _ _ => False

/-- the error whose change of context gave this one is its cause: all pairs of an error and its cause -/
def History.causes : History → List (Str × Str)
  | .start .. => []
  | .attach h _ => h.causes
  | .change h c _ => (h.told.head?.map (fun e => (c, e.msg))).toList ++ h.causes
  | .join h o => h.causes ++ o.causes

/-- pairs of an error and the cause shown for it -/
def shownCauses : List Entry → List (Str × Str)
  | a :: b :: l => (a.msg, b.msg) :: shownCauses (b :: l)
  | _ => []

/-! ## Lemmas -/

theorem walkAll_append (a b : List Frame) : walkAll (a ++ b) = walkAll a ++ walkAll b := by
  induction a with
  | nil => simp [walkAll]
  | cons f l ih => simp [walkAll, ih, List.append_assoc]

/-- parts of one error as they stand in a report: attachments from last to first, then the context -/
def isNote : Part → Bool
  | .context _ => false
  | _ => true

theorem collect_length (e : Entry) (l : List Part) : (collect e l).2.length ≤ l.length := by
  induction l generalizing e with
  | nil => simp [collect]
  | cons p l ih =>
    cases p <;> simp only [collect, List.length_cons]
    case context => omega
    all_goals exact Nat.le_succ_of_le (ih _)

theorem collect_lt (p : Part) (l : List Part) : (collect .empty (p :: l)).2.length ≤ l.length := by
  cases p <;> simp only [collect]
  case context => exact Nat.le_refl _
  all_goals exact collect_length _ _

theorem errors_enough (l : List Part) (n m : Nat) (hn : l.length ≤ n) (hm : l.length ≤ m) :
    errorsOf n l = errorsOf m l := by
  induction n generalizing l m with
  | zero =>
    have : l = [] := List.length_eq_zero_iff.1 (Nat.le_zero.1 hn)
    subst this; cases m <;> rfl
  | succ n ih =>
    cases l with
    | nil => cases m <;> rfl
    | cons p l =>
      cases m with
      | zero => simp at hm
      | succ m =>
        simp only [List.length_cons, Nat.succ_le_succ_iff] at hn hm
        simp only [errorsOf]
        rw [ih _ m (Nat.le_trans (collect_lt p l) hn) (Nat.le_trans (collect_lt p l) hm)]

/-- the errors in a list of frames -/
def errs (l : List Part) : List Entry := errorsOf l.length l

theorem errs_cons (p : Part) (l : List Part) : errs (p :: l) =
    { (collect .empty (p :: l)).1 with attachments := (collect .empty (p :: l)).1.attachments.reverse } ::
      errs (collect .empty (p :: l)).2 := by
  unfold errs
  simp only [List.length_cons, errorsOf]
  rw [errors_enough _ l.length _ (collect_lt p l) (Nat.le_refl _)]

/-- frames that end with a context -/
def closed (l : List Part) : Prop := ∃ pre c, l = pre ++ [.context c]

/-- a list of notes and a context put in front -/
theorem collect_block (e : Entry) (pre : List Part) (c : Str) (l : List Part) (h : pre.all isNote) :
    collect e (pre ++ .context c :: l) =
      ({ (collect e pre).1 with msg := c }, l) := by
  induction pre generalizing e with
  | nil => simp [collect]
  | cons p pre ih =>
    simp only [List.all_cons, Bool.and_eq_true] at h
    cases p <;> simp only [List.cons_append, collect]
    case context => simp [isNote] at h
    all_goals exact ih _ h.2

/-- the first context of closed frames -/
theorem split_closed (l : List Part) (h : closed l) :
    ∃ pre c rest, l = pre ++ .context c :: rest ∧ pre.all isNote ∧ (rest = [] ∨ closed rest) := by
  induction l with
  | nil => obtain ⟨pre, c, h⟩ := h; simp at h
  | cons p l ih =>
    obtain ⟨pre, c, h⟩ := h
    cases p with
    | context d =>
      refine ⟨[], d, l, rfl, rfl, ?_⟩
      cases pre with
      | nil => simp at h; exact .inl h.2
      | cons q pre => simp at h; exact .inr ⟨pre, c, h.2⟩
    | _ =>
      have hc : closed l := by
        cases pre with
        | nil => simp at h
        | cons q pre => simp at h; exact ⟨pre, c, h.2⟩
      obtain ⟨pre', d, rest, h1, h2, h3⟩ := ih hc
      refine ⟨_ :: pre', d, rest, by rw [h1]; rfl, ?_, h3⟩
      rw [List.all_cons, h2]; rfl

theorem errs_block (pre : List Part) (c : Str) (l : List Part) (h : pre.all isNote) :
    errs (pre ++ .context c :: l) =
      ⟨c, (collect .empty pre).1.attachments.reverse, (collect .empty pre).1.location,
        (collect .empty pre).1.backtrace⟩ :: errs l := by
  have hb := collect_block .empty pre c l h
  cases pre with
  | nil => simp only [List.nil_append] at hb ⊢; rw [errs_cons, hb]
  | cons p pre => simp only [List.cons_append] at hb ⊢; rw [errs_cons, hb]

theorem errs_append (a b : List Part) (h : closed a) : errs (a ++ b) = errs a ++ errs b := by
  induction hn : a.length using Nat.strongRecOn generalizing a with
  | _ n ih =>
    obtain ⟨pre, c, rest, rfl, hp, hr⟩ := split_closed a h
    rw [List.append_assoc, List.cons_append, errs_block pre c _ hp, errs_block pre c _ hp, List.cons_append]
    rcases hr with rfl | hr
    · rw [List.nil_append]; rfl
    · rw [ih rest.length (by rw [← hn]; simp; omega) rest hr rfl]

/-- what earlier notes change -/
theorem collect_more (a : List Str) (e : Entry) (l : List Part) :
    collect { e with attachments := a ++ e.attachments } l =
      ({ (collect e l).1 with attachments := a ++ (collect e l).1.attachments }, (collect e l).2) := by
  induction l generalizing e with
  | nil => rfl
  | cons p l ih =>
    cases p with
    | context c => rfl
    | location x => exact ih { e with location := x }
    | backtrace x => exact ih { e with backtrace := some x }
    | printable x =>
      have := ih { e with attachments := e.attachments ++ [x] }
      simp only [← List.append_assoc] at this
      exact this
    | «opaque» =>
      have := ih { e with attachments := e.attachments ++ ["opaque attachment".toList] }
      simp only [← List.append_assoc] at this
      exact this

/-- the frame of a note -/
def notePart : Option Str → Part
  | some p => .printable p
  | none => .opaque

theorem errs_note (n : Option Str) (l : List Part) (h : closed l) :
    errs (notePart n :: l) = noted (n.getD "opaque attachment".toList) (errs l) := by
  obtain ⟨pre, c, rest, rfl, hp, -⟩ := split_closed l h
  have hp' : (notePart n :: pre).all isNote = true := by
    rw [List.all_cons, hp]; cases n <;> rfl
  rw [← List.cons_append, errs_block _ c rest hp', errs_block pre c rest hp]
  have hc : collect .empty (notePart n :: pre) = collect
      { Entry.empty with attachments := [n.getD "opaque attachment".toList] ++ Entry.empty.attachments } pre := by
    cases n <;> rfl
  rw [hc, collect_more]
  simp [noted]

theorem frames_closed (h : History) : closed (walkAll h.frames) := by
  induction h with
  | start c loc b =>
    cases b with
    | none => exact ⟨[.location loc], c, rfl⟩
    | some b => exact ⟨[.backtrace b, .location loc], c, rfl⟩
  | attach h n ih =>
    obtain ⟨pre, c, ih⟩ := ih
    cases n with
    | none => exact ⟨.opaque :: pre, c, by simp [History.frames, walkAll, Frame.walk, ih]⟩
    | some p => exact ⟨.printable p :: pre, c, by simp [History.frames, walkAll, Frame.walk, ih]⟩
  | change h c loc ih =>
    obtain ⟨pre, d, ih⟩ := ih
    exact ⟨.location loc :: .context c :: pre, d, by simp [History.frames, walkAll, Frame.walk, ih]⟩
  | join h o _ ih =>
    obtain ⟨pre, d, ih⟩ := ih
    exact ⟨walkAll h.frames ++ pre, d, by simp [History.frames, walkAll_append, ih]⟩

theorem errs_frames (h : History) : errs (walkAll h.frames) = h.told := by
  induction h with
  | start c loc b => cases b <;> rfl
  | attach h n ih =>
    have : walkAll (History.attach h n).frames = notePart n :: walkAll h.frames := by
      cases n <;> simp [History.frames, walkAll, Frame.walk, notePart]
    rw [this, errs_note n _ (frames_closed h), ih]; rfl
  | change h c loc ih =>
    have : walkAll (History.change h c loc).frames = [.location loc] ++ .context c :: walkAll h.frames := by
      simp [History.frames, walkAll, Frame.walk]
    rw [this, errs_block _ _ _ rfl, ih]; rfl
  | join h o ih ih' =>
    rw [History.frames, walkAll_append, errs_append _ _ (frames_closed h), ih, ih']; rfl

/-- `chain_causes` outermost first -/
def chained : List Entry → Option LoggableError
  | [] => none
  | e :: l => some (.mk e.msg e.attachments e.location (chained l) e.backtrace)

theorem chainCauses_eq (l : List Entry) : chainCauses l = chained l := by
  induction l with
  | nil => rfl
  | cons e l ih =>
    unfold chainCauses at ih ⊢
    rw [List.reverse_cons, List.foldl_append, ih]; rfl

theorem chained_entries (l : List Entry) (e : LoggableError) (h : chained l = some e) : e.entries = l := by
  induction l generalizing e with
  | nil => simp [chained] at h
  | cons x l ih =>
    simp only [chained, Option.some.injEq] at h
    subst h
    cases hl : chained l with
    | none => cases l <;> simp_all [LoggableError.entries, chained]
    | some c => simp only [LoggableError.entries, ih c hl]

theorem told_ne (h : History) : h.told ≠ [] := by
  induction h with
  | start | change => simp [History.told]
  | attach h n ih => cases ht : h.told <;> simp_all [History.told, noted]
  | join h o ih _ => simp [History.told, ih]

theorem noted_head (n : Str) (l : List Entry) : (noted n l).head?.map Entry.msg = l.head?.map Entry.msg := by
  cases l <;> rfl

theorem noted_causes (n : Str) (l : List Entry) : shownCauses (noted n l) = shownCauses l := by
  match l with
  | [] => rfl
  | [_] => rfl
  | _ :: _ :: _ => rfl

/-! ## Theorems -/

/-- **C103.**  An error is always shown (the conversion never panics), and what is shown is complete and in
order: the errors of the report from the last to the first, each with its message, the place where it arose
and its own notes in the order in which they were made. -/
theorem C103_shown (h : History) : ∃ e, LoggableError.ofReport h.frames = some e ∧ e.entries = h.told := by
  have he := errs_frames h
  unfold errs at he
  unfold LoggableError.ofReport
  rw [he, chainCauses_eq]
  cases hc : chained h.told with
  | none =>
    cases ht : h.told with
    | nil => exact absurd ht (told_ne h)
    | cons x l => rw [ht] at hc; simp [chained] at hc
  | some e => exact ⟨e, rfl, chained_entries _ _ hc⟩

/-- **C103.**  The text a contract answers with names every error of the report with all its notes. -/
theorem C103_text (debug : Str → Str) (h : History) (e : LoggableError)
    (he : LoggableError.ofReport h.frames = some e) :
    e.text debug = List.intercalate ": ".toList (h.told.map (Entry.text debug)) := by
  obtain ⟨e', h1, h2⟩ := C103_shown h
  rw [h1] at he; cases he
  rw [← h2]
  have one (m a l b c) : (LoggableError.mk m a l (some c) b).text debug =
      Entry.text debug ⟨m, a, l, b⟩ ++ ": ".toList ++ c.text debug := by rfl
  have key : ∀ n (e : LoggableError), e.entries.length = n →
      e.text debug = List.intercalate ": ".toList (e.entries.map (Entry.text debug)) := by
    intro n
    induction n with
    | zero => intro e h; rcases e with ⟨m, a, l, _ | c, b⟩ <;> simp [LoggableError.entries] at h
    | succ n ih =>
      intro e h
      rcases e with ⟨m, a, l, _ | c, b⟩
      · simp only [LoggableError.text, LoggableError.entries, List.map_cons, List.map_nil, Entry.text]
        simp [List.intercalate]
      · simp only [LoggableError.entries, List.length_cons, Nat.succ.injEq] at h
        rw [one, ih c h]
        simp only [LoggableError.entries, List.map_cons]
        have hne : c.entries ≠ [] := by rcases c with ⟨m', a', l', _ | c', b'⟩ <;> simp [LoggableError.entries]
        cases hce : c.entries with
        | nil => exact absurd hce hne
        | cons x xs => simp [List.intercalate, List.intersperse]
  exact key _ e rfl

/-- **C103** (partial: only for reports that were not joined from two).  The cause shown for an error is the
one the report names. -/
theorem C103_cause_partial (h : History) (hs : h.Single) : shownCauses h.told = h.causes := by
  induction h with
  | start => rfl
  | attach h n ih => rw [History.told, noted_causes, ih hs, History.causes]
  | change h c loc ih =>
    have := ih hs
    simp only [History.told, History.causes]
    cases ht : h.told with
    | nil => exact absurd ht (told_ne h)
    | cons x l => rw [ht] at this; simp [shownCauses, this]
  | join => exact hs.elim

/-- **C103, the exception.**  Two failures that were joined (both the run of the daemon and the write of its
state failed; several lookups of a transaction failed) are shown just as if the second had caused the
first. -/
theorem C103_joined (h : History) (a loc : Str) :
    LoggableError.ofReport (History.join (.start a loc none) h).frames =
      LoggableError.ofReport (History.change h a loc).frames := by
  unfold LoggableError.ofReport
  have h1 := errs_frames (History.join (.start a loc none) h)
  have h2 := errs_frames (History.change h a loc)
  unfold errs at h1 h2
  rw [h1, h2]; rfl

/-- so the full statement fails -/
theorem C103_cause_counterexample : ∃ h : History, shownCauses h.told ≠ h.causes :=
  ⟨.join (.start "run failed".toList "lib.rs:1".toList none) (.start "disk full".toList "state.rs:1".toList none),
    by decide⟩

/-! ## Examples -/

/-- the report of the test of the crate (`loggable.rs:166-175`) -/
def exHistory : History :=
  .attach (.change (.attach (.attach (.change (.attach (.start "error1".toList "a:1".toList (some ["bt".toList]))
    (some "foo1".toList)) "error2".toList "a:3".toList) (some "test1".toList)) (some "test2".toList))
    "error3".toList "a:6".toList) none

example : exHistory.Single ∧ exHistory.told =
    [⟨"error3".toList, ["opaque attachment".toList], "a:6".toList, none⟩,
     ⟨"error2".toList, ["test1".toList, "test2".toList], "a:3".toList, none⟩,
     ⟨"error1".toList, ["foo1".toList], "a:1".toList, some ["bt".toList]⟩] := ⟨trivial, by decide⟩

example : (LoggableError.ofReport exHistory.frames).map (LoggableError.text (fun s => ['"'] ++ s ++ ['"'])) =
    some "error3 (\"opaque attachment\"): error2 (\"test1\", \"test2\"): error1 (\"foo1\")".toList := by
  decide +kernel

end Amp.Report
