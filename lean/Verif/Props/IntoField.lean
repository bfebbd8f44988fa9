import Verif.Spec.IntoField
import Verif.Props.Log
import Verif.Props.Field
/- C78: a value put into a log comes back from the getter of its type. -/
namespace USiem.Props
open Spec

theorem asked_lastPut {u : Ambient} {name : Str} {v : SiemField} {log : SiemLog} (h : LastPut u name v log) :
    log.field name = some v ∧ asked u log name = ⟨freshly (some v) SiemField.toLogString, freshly (some v) SiemField.toU64,
      freshly (some v) SiemField.toI64, freshly (some v) (SiemField.toF64 u), freshly (some v) (SiemField.toArray u)⟩ ∧
    ∃ a log', log.ipField name = .ret (a, log') ∧ ∀ ip, a = some ip ↔ v.toIp = .ret (.ok ip) := by
  obtain ⟨m, r, o, before, c, after, hrun, hw, ha, hna⟩ := h.hist
  have hf := C37_last_write u _ log before after c name v hrun hw ha
  obtain ⟨g1, g2, g3, g4, g5⟩ := C37_typed_getters u m r o _ log hrun hna name
  refine ⟨hf, ?_, ?_⟩
  · rw [asked, g1, g2, g3, g4, g5, hf]
  · obtain ⟨a, log', h1, h2⟩ := C37_ip_getter u m r o _ log hrun hna name
    refine ⟨a, log', h1, fun ip => ?_⟩
    rw [h2]
    constructor
    · rintro ⟨f, e1, e2⟩
      rw [hf] at e1; cases e1; exact e2
    · intro e; exact ⟨v, hf, e⟩

/-- C78. A text put into a log comes back as text, and as a list of one text; it is no number. It is an address exactly when it can be parsed
as one. -/
theorem C78_text (u : Ambient) (name t : Str) (log : SiemLog) (h : LastPut u name (.ofText t) log ∨ LastPut u name (.fromStrSlice t) log) :
    asked u log name = ⟨some t, none, none, none, some [t]⟩ ∧
    ∃ a log', log.ipField name = .ret (a, log') ∧ ∀ ip, a = some ip ↔ SiemIp.fromIpStr t = .ret (.ok ip) := by
  have h : LastPut u name (.text t) log := h.elim id id
  obtain ⟨_, h2, a, log', h3, h4⟩ := asked_lastPut h
  refine ⟨h2, a, log', h3, fun ip => ?_⟩
  rw [h4]
  simp only [SiemField.toIp]
  cases SiemIp.fromIpStr t with
  | panic => exact ⟨fun e => (by cases e), fun e => (by cases e)⟩
  | ret x => cases x <;> simp

/-- C78. An unsigned number comes back as it is; as a signed one when it is below 2^63, as a float when it is at most 2^53 (`u.rnd` rounds to
the nearest double), and printed in decimal as a list of one text; it is no text and no address. -/
theorem C78_unsigned (u : Ambient) (name : Str) (v : BitVec 64) (log : SiemLog) (h : LastPut u name (.ofU64 v) log) :
    asked u log name = ⟨none, some v, some v, some (u.rnd v.toNat), some [decStr v.toNat]⟩ ∧ (v.toNat < 2 ^ 63 → v.toInt = v.toNat) ∧
    (ExactOnSmallIntegers u.rnd → v.toNat ≤ 2 ^ 53 → u.rnd v.toNat = .fin v.toNat) ∧ ∃ log', log.ipField name = .ret (none, log') := by
  obtain ⟨_, h2, a, log', h3, h4⟩ := asked_lastPut h
  refine ⟨h2, fun hv => ?_, fun he hv => ?_, log', ?_⟩
  · rw [BitVec.toInt_eq_toNat_cond, if_pos (by omega)]
  · exact he (v.toNat : Int) (by simpa using hv)
  · cases a with
    | none => exact h3
    | some ip => have := (h4 ip).1 rfl; cases this

/-- C78. A signed number comes back as it is; as an unsigned one when it is not negative (else its two's complement), as a float when its size is at most 2^53, and printed in decimal. -/
theorem C78_signed (u : Ambient) (name : Str) (v : BitVec 64) (log : SiemLog) (h : LastPut u name (.ofI64 v) log) :
    asked u log name = ⟨none, some v, some v, some (u.rnd v.toInt), some [intStr v.toInt]⟩ ∧ (0 ≤ v.toInt → (v.toNat : Int) = v.toInt) ∧
    (ExactOnSmallIntegers u.rnd → v.toInt.natAbs ≤ 2 ^ 53 → u.rnd v.toInt = .fin v.toInt) ∧ ∃ log', log.ipField name = .ret (none, log') := by
  obtain ⟨_, h2, a, log', h3, h4⟩ := asked_lastPut h
  refine ⟨h2, fun hv => ?_, fun he hv => he _ hv, log', ?_⟩
  · rw [BitVec.toInt_eq_toNat_cond] at hv ⊢
    split
    · rfl
    · rename_i hn
      rw [if_neg hn] at hv
      have := v.isLt
      omega
  · cases a with
    | none => exact h3
    | some ip => have := (h4 ip).1 rfl; cases this

/-- C78. A float comes back as it is, also when it is not a number or infinite, and truncated as an integer; printed as a list of one text. -/
theorem C78_float (u : Ambient) (name : Str) (x : F64) (log : SiemLog) (h : LastPut u name (.ofF64 x) log) :
    asked u log name = ⟨none, some (SiemField.f64AsU64 x), some (BitVec.ofInt 64 x.toI64), some x, some [u.f64Str x]⟩ ∧
    ∃ log', log.ipField name = .ret (none, log') := by
  obtain ⟨_, h2, a, log', h3, h4⟩ := asked_lastPut h
  refine ⟨h2, log', ?_⟩
  cases a with
  | none => exact h3
  | some ip => have := (h4 ip).1 rfl; cases this

/-- C78. An address comes back as it is, and printed as a list of one text; it is no text and no number. -/
theorem C78_address (u : Ambient) (name : Str) (ip : SiemIp) (log : SiemLog) (h : LastPut u name (.ofIp ip) log) :
    asked u log name = ⟨none, none, none, none, some [ip.toStr]⟩ ∧ ∃ log', log.ipField name = .ret (some ip, log') := by
  obtain ⟨_, h2, a, log', h3, h4⟩ := asked_lastPut h
  refine ⟨h2, log', ?_⟩
  rw [h3, (h4 ip).2 rfl]

/-- C78. A list of texts comes back as it is, and as nothing else. -/
theorem C78_texts (u : Ambient) (name : Str) (l : List Str) (log : SiemLog) (h : LastPut u name (.ofTexts l) log) :
    asked u log name = ⟨none, none, none, none, some l⟩ ∧ ∃ log', log.ipField name = .ret (none, log') := by
  obtain ⟨_, h2, a, log', h3, h4⟩ := asked_lastPut h
  refine ⟨h2, log', ?_⟩
  cases a with
  | none => exact h3
  | some ip => have := (h4 ip).1 rfl; cases this

/-- C78. Two values of one type make the same field only when they are the same value, and values of different types never make the same
field. -/
theorem C78_injective :
    (∀ a b, SiemField.ofText a = .ofText b → a = b) ∧ (∀ a b, SiemField.ofU64 a = .ofU64 b → a = b) ∧
    (∀ a b, SiemField.ofI64 a = .ofI64 b → a = b) ∧ (∀ a b, SiemField.ofF64 a = .ofF64 b → a = b) ∧
    (∀ a b, SiemField.ofIp a = .ofIp b → a = b) ∧ (∀ a b, SiemField.ofTexts a = .ofTexts b → a = b) ∧
    ∀ t v n x ip l, [SiemField.ofText t, .ofU64 v, .ofI64 n, .ofF64 x, .ofIp ip, .ofTexts l].Nodup := by
  refine ⟨?_, ?_, ?_, ?_, ?_, ?_, ?_⟩
  all_goals try (intro a b h; injection h)
  intro t v n x ip l
  simp [SiemField.ofText, SiemField.ofU64, SiemField.ofI64, SiemField.ofF64, SiemField.ofIp, SiemField.ofTexts]

example (u : Ambient) : ∃ log, LastPut u (chars% "n") (.ofU64 7) log := by
  obtain ⟨log, h⟩ := C37_history_total u [] 0 []
    ([.addField (chars% "n") (.text []), .setMessage []] ++ .addField (chars% "n") (.ofU64 7) :: [.setTenant (chars% "t")])
  refine ⟨log, ⟨[], 0, [], _, _, _, h, rfl, ?_, ?_⟩⟩
  · intro d hd
    cases List.mem_singleton.1 hd
    simp [touches, written, isAddTag, isSchema]
  · decide +kernel

end USiem.Props
