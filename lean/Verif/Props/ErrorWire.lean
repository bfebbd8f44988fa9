import Verif.Model.ErrorWire
import Verif.Spec.ErrorWire
import Verif.Props.Wire
/- C59. Errors as JSON and the conversions into the common error type. -/
namespace USiem
open Json Spec

theorem StorageError.de_ser (e : StorageError) : StorageError.de e.ser = some e := by cases e <;> rfl
theorem MessagingError.de_ser (e : MessagingError) : MessagingError.de e.ser = some e := by cases e <;> rfl
theorem ComponentError.de_ser (e : ComponentError) : ComponentError.de e.ser = some e := by cases e <;> rfl
theorem CommandExecutionError.de_ser (e : CommandExecutionError) : CommandExecutionError.de e.ser = some e := by cases e <;> rfl

theorem LogParsingError.de_ser (u : Ambient) (e : LogParsingError) : LogParsingError.de u e.ser =
    match e with
    | .noValidParser l => (SiemLog.de u l.ser).map .noValidParser
    | .parserError l m => (SiemLog.de u l.ser).map fun l' => .parserError l' m
    | .notImplemented l => (SiemLog.de u l.ser).map .notImplemented
    | .formatError l m => (SiemLog.de u l.ser).map fun l' => .formatError l' m
    | .discard => some .discard := by
  cases e with
  | discard => rfl
  | noValidParser l => rfl
  | notImplemented l => rfl
  | parserError l m =>
    refine (enum_tagged (d := tupV (SiemLog.de u) deStr .parserError) rfl).trans ?_
    simp only [tupV, deStr]
    cases SiemLog.de u l.ser <;> rfl
  | formatError l m =>
    refine (enum_tagged (d := tupV (SiemLog.de u) deStr .formatError) rfl).trans ?_
    simp only [tupV, deStr]
    cases SiemLog.de u l.ser <;> rfl

/-- C59. Errors that carry no log are read back as they were. -/
theorem C59_error_round_trip (u : Ambient) (e : SiemError) (h : errorLog e = none) : SiemError.de u e.ser = some e := by
  cases e with
  | parsing e =>
    cases e with
    | discard => rfl
    | _ => cases h
  | storage e => exact (enum_tagged (d := newV StorageError.de SiemError.storage) rfl).trans (by rw [newV_some, StorageError.de_ser]; rfl)
  | messaging e => exact (enum_tagged (d := newV MessagingError.de SiemError.messaging) rfl).trans (by rw [newV_some, MessagingError.de_ser]; rfl)
  | component e => exact (enum_tagged (d := newV ComponentError.de SiemError.component) rfl).trans (by rw [newV_some, ComponentError.de_ser]; rfl)
  | command e => exact (enum_tagged (d := newV CommandExecutionError.de SiemError.command) rfl).trans (by rw [newV_some, CommandExecutionError.de_ser]; rfl)
  | _ => rfl

/-- C59. An error that carries a log is read back with the log as it is after JSON, everything else unchanged; if the log cannot be
read, neither can the error. -/
theorem C59_error_with_log (u : Ambient) (e : SiemError) (l : SiemLog) (h : errorLog e = some l) :
    SiemError.de u e.ser = (SiemLog.de u l.ser).map fun l' => withLog l' e := by
  cases e with
  | parsing e =>
    have key : SiemError.de u (SiemError.parsing e).ser = (LogParsingError.de u e.ser).map .parsing :=
      (enum_tagged (d := newV (LogParsingError.de u) SiemError.parsing) rfl).trans (by rw [newV_some])
    rw [key, LogParsingError.de_ser]
    cases e <;> first | (cases h; done) | (cases h; dsimp only; rw [Option.map_map]; rfl)
  | _ => cases h

/-- C59. So a parser's error about an ordinary log (one with a message text) is never read back. -/
theorem C59_error_about_log_never_read (u : Ambient) (e : SiemError) (l : SiemLog) (f : InternalField) (t : Str)
    (h : errorLog e = some l) (hm : l.fields.get? (chars% "message") = some f) (ht : f.original = .text t) :
    SiemError.de u e.ser = none := by
  rw [C59_error_with_log u e l h, C53_log_with_message_never_read u l f t hm ht]; rfl

/-- C59. An error is written as an object with one member named after its kind; a text is its value as it is, an error without
payload is its name. -/
theorem C59_written_form (e : SiemError) :
    ∃ payload, e.ser = .obj [(errorName e, payload)] ∧
      (∀ t, errorText e = some t → payload = .str t) ∧
      (∀ n, innerName e = some n → payload = .str n) := by
  cases e with
  | storage e => cases e <;> exact ⟨_, rfl, by simp [errorText], by simp [innerName, StorageError.ser]⟩
  | messaging e => cases e <;> exact ⟨_, rfl, by simp [errorText], by simp [innerName, MessagingError.ser]⟩
  | component e => cases e <;> exact ⟨_, rfl, by simp [errorText], by simp [innerName, ComponentError.ser]⟩
  | command e => cases e <;> exact ⟨_, rfl, by simp [errorText], by simp [innerName]⟩
  | parsing e => cases e <;> exact ⟨_, rfl, by simp [errorText], by simp [innerName, LogParsingError.ser]⟩
  | _ => exact ⟨_, rfl, by simp [errorText], by simp [innerName]⟩

/-- C59. Errors of parsers are written with the log, and with the text where there is one; errors of commands with their text. -/
theorem C59_nested_form (l : SiemLog) (t : Str) :
    SiemError.ser (.parsing (.noValidParser l)) = .obj [(chars% "Parsing", .obj [(chars% "NoValidParser", l.ser)])] ∧
    SiemError.ser (.parsing (.notImplemented l)) = .obj [(chars% "Parsing", .obj [(chars% "NotImplemented", l.ser)])] ∧
    SiemError.ser (.parsing (.parserError l t)) =
      .obj [(chars% "Parsing", .obj [(chars% "ParserError", .arr [l.ser, .str t])])] ∧
    SiemError.ser (.parsing (.formatError l t)) =
      .obj [(chars% "Parsing", .obj [(chars% "FormatError", .arr [l.ser, .str t])])] ∧
    SiemError.ser (.command (.communication t)) = .obj [(chars% "Command", .obj [(chars% "Communication", .str t)])] ∧
    SiemError.ser (.command (.other t)) = .obj [(chars% "Command", .obj [(chars% "Other", .str t)])] :=
  ⟨rfl, rfl, rfl, rfl, rfl, rfl⟩

/-- C59. Whatever document an error is read from has one member, named after the kind of the error read. -/
theorem C59_read_form (u : Ambient) (j : Json) (e : SiemError) (h : SiemError.de u j = some e) :
    ∃ payload, j = .obj [(errorName e, payload)] ∧ (∀ t, errorText e = some t → payload = .str t) := by
  have newV_eq : ∀ {α β : Type} {f : Json → Option α} {c : α → β} {p : Option Json} {b : β}, newV f c p = some b →
      ∃ j a, p = some j ∧ f j = some a ∧ c a = b := by
    intro α β f c p b h
    cases p with
    | none => cases h
    | some j =>
      simp only [newV, Option.map_eq_some_iff] at h
      obtain ⟨a, ha, rfl⟩ := h
      exact ⟨j, a, rfl, ha, rfl⟩
  have str_eq : ∀ {j : Json} {s : Str}, deStr j = some s → j = .str s := by
    intro j s h; cases j <;> simp [deStr] at h; rw [h]
  unfold SiemError.de enum at h
  have hv : ∀ k p, variant j = some (k, some p) → j = .obj [(k, p)] := by
    intro k p hk
    unfold variant at hk
    split at hk <;> simp_all
  cases hj : variant j with
  | none => rw [hj] at h; cases h
  | some kp =>
    obtain ⟨k, p⟩ := kp
    rw [hj] at h
    simp only at h
    split at h
    · cases h
    · rename_i x hx
      have hk : x.1 = k := by simpa using List.find?_some hx
      have hm := List.mem_of_find?_eq_some hx
      simp only [List.mem_cons, List.not_mem_nil, or_false] at hm
      rcases hm with rfl | rfl | rfl | rfl | rfl | rfl | rfl | rfl | rfl | rfl | rfl <;>
        (obtain ⟨j', a, rfl, ha, rfl⟩ := newV_eq h; subst hk
         refine ⟨j', hv _ _ hj, ?_⟩
         first
         | (intro t ht; cases ht; exact str_eq ha)
         | (intro t ht; cases ht))

/-- C59. Different errors without a log are written differently. -/
theorem C59_errors_distinguishable (e e' : SiemError) (h : errorLog e = none) (h' : errorLog e' = none)
    (hs : e.ser = e'.ser) (u : Ambient) : e = e' := by
  have h1 := C59_error_round_trip u e h
  rw [hs, C59_error_round_trip u e' h'] at h1
  exact (Option.some.inj h1).symm

/-- C59. Converting an error of one of the six kinds and writing it gives the object named after the kind, with the error (or its
text) inside. -/
theorem C59_conversions :
    (∀ e, (SiemError.ofMessaging e).ser = .obj [(chars% "Messaging", e.ser)]) ∧
    (∀ e, (SiemError.ofComponent e).ser = .obj [(chars% "Component", e.ser)]) ∧
    (∀ e, (SiemError.ofStorage e).ser = .obj [(chars% "Storage", e.ser)]) ∧
    (∀ e, (SiemError.ofCommand e).ser = .obj [(chars% "Command", e.ser)]) ∧
    (∀ t, (SiemError.ofIo t).ser = .obj [(chars% "Io", .str t)]) ∧
    (∀ t, (SiemError.ofSerde t).ser = .obj [(chars% "Serialization", .str t)]) :=
  ⟨fun _ => rfl, fun _ => rfl, fun _ => rfl, fun _ => rfl, fun _ => rfl, fun _ => rfl⟩

/-- C59. Converting and sending as JSON loses nothing: the error converted can be told from what is read. -/
theorem C59_conversions_survive (u : Ambient) :
    (∀ e, SiemError.de u (SiemError.ofMessaging e).ser = some (.messaging e)) ∧
    (∀ e, SiemError.de u (SiemError.ofComponent e).ser = some (.component e)) ∧
    (∀ e, SiemError.de u (SiemError.ofStorage e).ser = some (.storage e)) ∧
    (∀ e, SiemError.de u (SiemError.ofCommand e).ser = some (.command e)) ∧
    (∀ t, SiemError.de u (SiemError.ofIo t).ser = some (.io t)) ∧
    (∀ t, SiemError.de u (SiemError.ofSerde t).ser = some (.serialization t)) :=
  ⟨fun e => C59_error_round_trip u (.messaging e) rfl, fun e => C59_error_round_trip u (.component e) rfl,
    fun e => C59_error_round_trip u (.storage e) rfl, fun e => C59_error_round_trip u (.command e) rfl,
    fun t => C59_error_round_trip u (.io t) rfl, fun t => C59_error_round_trip u (.serialization t) rfl⟩

/-- A parser's error about a new log: it carries the log, and is not read back. -/
example (u : Ambient) : errorLog (.parsing (.formatError (SiemLog.new (chars% "hi") 0 (chars% "host")) (chars% "bad"))) ≠ none ∧
    SiemError.de u (SiemError.ser (.parsing (.formatError (SiemLog.new (chars% "hi") 0 (chars% "host")) (chars% "bad")))) = none :=
  ⟨by simp [errorLog], C59_error_about_log_never_read u _ _ (.ofField (.text (chars% "hi"))) (chars% "hi") rfl rfl rfl⟩
/-- One that is read back although it carries a log. -/
example (u : Ambient) : ∃ e, errorLog e ≠ none ∧ (SiemError.de u e.ser).isSome := by
  refine ⟨.parsing (.noValidParser ⟨[], [(chars% "x", { original := .array [chars% "a"] })], []⟩), by simp [errorLog], ?_⟩
  rw [C59_error_with_log u _ _ rfl]
  obtain ⟨l', h⟩ := (C53_log_readable_iff u ⟨[], [(chars% "x", { original := .array [chars% "a"] })], []⟩).2 (by simp)
  rw [h]; rfl
example : errorLog (.storage .alredyExists) = none ∧
    SiemError.ser (.storage .alredyExists) = .obj [(chars% "Storage", .str (chars% "AlredyExists"))] := ⟨rfl, rfl⟩

end USiem
