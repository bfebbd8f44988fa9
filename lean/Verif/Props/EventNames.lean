import Verif.Spec.EventNames
import Verif.Props.Events
/- C45, C46: names of HTTP methods and of protocols. -/
namespace USiem
open Spec

/-! ### C46: protocol numbers -/

theorem parseProtocolId_high (id : BitVec 16) (h : 256 ≤ id.toNat) : parseProtocolId id = .UNKNOWN := by
  unfold parseProtocolId
  split <;> first | rfl | (exfalso; omega)

theorem protocol_unit (p : NetworkProtocol) (h : p ∈ NetworkProtocol.all) (dbg : Str → Str) : p.toStr dbg = p.toStr id := by
  cases p with
  | OTHER v => simp [NetworkProtocol.all] at h
  | _ => rfl

theorem protocol_iana : ∀ p ∈ ianaProtocols, p.1 < 256 ∧ parseProtocolId (BitVec.ofNat 16 p.1) ∈ NetworkProtocol.all ∧
    parseProtocolId (BitVec.ofNat 16 p.1) ≠ .UNKNOWN ∧ (parseProtocolId (BitVec.ofNat 16 p.1)).toStr id = rustName p.2 := by
  decide +kernel

theorem protocol_low : ∀ n : Fin 256, parseProtocolId (BitVec.ofNat 16 n) ≠ .UNKNOWN → n.val ∈ ianaProtocols.map (·.1) := by
  decide +kernel

/-- Every number of the IANA list gives the protocol of that keyword. -/
theorem C46_assigned (id : BitVec 16) (k : Str) (h : (id.toNat, k) ∈ ianaProtocols) (dbg : Str → Str) :
    (parseProtocolId id).toStr dbg = rustName k := by
  obtain ⟨_, h2, _, h4⟩ := protocol_iana _ h
  simp only [BitVec.ofNat_toNat, BitVec.setWidth_eq] at h2 h4
  rw [protocol_unit _ h2, h4]

/-- Exactly the numbers outside the list are unknown, over all 65536 numbers. -/
theorem C46_unassigned (id : BitVec 16) : parseProtocolId id = .UNKNOWN ↔ ∀ k, (id.toNat, k) ∉ ianaProtocols := by
  constructor
  · intro h k hk
    obtain ⟨_, _, h3, _⟩ := protocol_iana _ hk
    simp only [BitVec.ofNat_toNat, BitVec.setWidth_eq] at h3
    exact h3 h
  · intro h
    by_cases hl : id.toNat < 256
    · apply Classical.byContradiction
      intro hne
      have := protocol_low ⟨id.toNat, hl⟩ (by simpa using hne)
      obtain ⟨p, hp, e⟩ := List.mem_map.1 this
      exact h p.2 (by rw [← show p.1 = id.toNat from e]; exact hp)
    · exact parseProtocolId_high id (by omega)

/-- Different numbers give different protocols, except that 253 and 254 share one. -/
theorem C46_distinct (id id' : BitVec 16) (h : parseProtocolId id = parseProtocolId id') (hk : parseProtocolId id ≠ .UNKNOWN) :
    id = id' ∨ ((id = 253 ∨ id = 254) ∧ (id' = 253 ∨ id' = 254)) := by
  have hin : ∀ id : BitVec 16, parseProtocolId id ≠ .UNKNOWN → id.toNat ∈ ianaProtocols.map (·.1) := by
    intro id hk
    apply Classical.byContradiction
    intro hn
    exact hk ((C46_unassigned id).2 (fun k hm => hn (List.mem_map.2 ⟨_, hm, rfl⟩)))
  have hn : (((ianaProtocols.map (·.1)).filter (fun n => n != 254)).map (fun n => parseProtocolId (BitVec.ofNat 16 n))).Nodup := by
    decide +kernel
  have e254 : parseProtocolId 254 = parseProtocolId 253 := by decide +kernel
  have m253 : 253 ∈ (ianaProtocols.map (·.1)).filter (fun n => n != 254) := by decide +kernel
  have key : ∀ a ∈ (ianaProtocols.map (·.1)).filter (fun n => n != 254), ∀ b ∈ (ianaProtocols.map (·.1)).filter (fun n => n != 254),
      parseProtocolId (BitVec.ofNat 16 a) = parseProtocolId (BitVec.ofNat 16 b) → a = b := by
    intro a ha b hb e
    have inj : ∀ (l : List Nat) (f : Nat → NetworkProtocol), (l.map f).Nodup → ∀ a ∈ l, ∀ b ∈ l, f a = f b → a = b := by
      intro l f
      induction l with
      | nil => intro _ a ha; cases ha
      | cons c t ih =>
        intro h a ha b hb e
        simp only [List.map_cons, List.nodup_cons] at h
        rcases List.mem_cons.1 ha with ea | ta <;> rcases List.mem_cons.1 hb with eb | tb
        · rw [ea, eb]
        · subst ea; exact absurd (List.mem_map.2 ⟨b, tb, e.symm⟩) h.1
        · subst eb; exact absurd (List.mem_map.2 ⟨a, ta, e⟩) h.1
        · exact ih h.2 a ta b tb e
    exact inj _ _ hn a ha b hb e
  have mem : ∀ id : BitVec 16, parseProtocolId id ≠ .UNKNOWN → id ≠ 254 →
      id.toNat ∈ (ianaProtocols.map (·.1)).filter (fun n => n != 254) := by
    intro id hk h4
    refine List.mem_filter.2 ⟨hin id hk, ?_⟩
    simp only [bne_iff_ne, ne_eq]
    intro e
    exact h4 (BitVec.eq_of_toNat_eq e)
  have of : ∀ id : BitVec 16, BitVec.ofNat 16 id.toNat = id := by intro id; simp
  have hk' : parseProtocolId id' ≠ .UNKNOWN := by rw [← h]; exact hk
  by_cases h1 : id = 254
  · subst h1
    by_cases h2 : id' = 254
    · exact .inl h2.symm
    · right
      refine ⟨.inr rfl, .inl ?_⟩
      have := key 253 m253 _ (mem id' hk' h2) (by rw [of]; exact e254.symm.trans h)
      exact (BitVec.eq_of_toNat_eq (show (253#16).toNat = id'.toNat from this)).symm
  · by_cases h2 : id' = 254
    · subst h2
      right
      refine ⟨.inl ?_, .inr rfl⟩
      have := key _ (mem id hk h1) 253 m253 (by rw [of]; exact h.trans e254)
      exact BitVec.eq_of_toNat_eq this
    · left
      have := key _ (mem id hk h1) _ (mem id' hk' h2) (by rw [of, of]; exact h)
      exact BitVec.eq_of_toNat_eq this

/-- Protocols that print alike are equal. `hd`: the Debug text of a string determines it. -/
theorem C46_names {dbg : Str → Str} (hd : ∀ a b, dbg a = dbg b → a = b) (p q : NetworkProtocol) (h : p.toStr dbg = q.toStr dbg) :
    p = q := NetworkProtocol.toStr_inj hd h

/-- No number gives a protocol with a text of its own, and none gives `TTP` (the second name of 84). -/
theorem C46_never (id : BitVec 16) : parseProtocolId id ≠ .TTP ∧ ∀ v, parseProtocolId id ≠ .OTHER v := by
  by_cases h : parseProtocolId id = .UNKNOWN
  · rw [h]; exact ⟨by decide, by intro v hv; cases hv⟩
  · have hk := fun hn => h ((C46_unassigned id).2 hn)
    obtain ⟨k, hm⟩ := Classical.not_forall.1 hk
    have hm := Classical.not_not.1 hm
    have : ∀ p ∈ ianaProtocols, parseProtocolId (BitVec.ofNat 16 p.1) ≠ .TTP := by decide +kernel
    have h1 := this _ hm
    have h2 := (protocol_iana _ hm).2.1
    simp only [BitVec.ofNat_toNat, BitVec.setWidth_eq] at h1 h2
    refine ⟨h1, fun v hv => ?_⟩
    rw [hv] at h2
    simp [NetworkProtocol.all] at h2

example : (parseProtocolId 6).toStr id = chars% "TCP" := C46_assigned 6 (chars% "TCP") (by decide +kernel) id
example : (parseProtocolId 93).toStr id = chars% "AX_25" := C46_assigned 93 (chars% "AX.25") (by decide +kernel) id
example : parseProtocolId 144 = .UNKNOWN := (C46_unassigned 144).2 (by
  intro k h
  exact absurd (List.mem_map.2 ⟨_, h, rfl⟩ : (144#16).toNat ∈ ianaProtocols.map (·.1)) (by decide +kernel))

/-! ### C45: HTTP methods -/

/-- Names in any ASCII case give their method: all but `PUT`. -/
theorem C45_known (upper : Str → Str) (hu : UpperCases upper) (name : Str) (m : HttpMethod) (h : (name, m) ∈ httpMethods)
    (hp : m ≠ .PUT) (s : Str) (hs : Ascii s) (he : s.map asciiUpper = name) : HttpMethod.fromStrSlice upper s = m := by
  have hup : upper s = name := by rw [hu s hs, he]
  unfold HttpMethod.fromStrSlice
  rw [hup]
  simp only [httpMethods, List.mem_cons, Prod.mk.injEq, List.not_mem_nil, or_false] at h
  rcases h with h | h | h | h | h | h | h | h <;> obtain ⟨rfl, rfl⟩ := h <;> first | decide | exact absurd rfl hp

/-- A text that gives a method with a name is that name in some case. -/
theorem C45_only (upper : Str → Str) (s : Str) (m : HttpMethod) (h : HttpMethod.fromStrSlice upper s = m) :
    (upper s, m) ∈ httpMethods ∨ m = .UNKNOWN (upper s) := by
  subst h
  unfold HttpMethod.fromStrSlice
  by_cases h1 : upper s = chars% "GET"
  · rw [h1]; exact .inl (by decide)
  by_cases h2 : upper s = chars% "POST"
  · rw [h2]; exact .inl (by decide)
  by_cases h3 : upper s = chars% "PATCH"
  · rw [h3]; exact .inl (by decide)
  by_cases h4 : upper s = chars% "OPTIONS"
  · rw [h4]; exact .inl (by decide)
  by_cases h5 : upper s = chars% "CONNECT"
  · rw [h5]; exact .inl (by decide)
  by_cases h6 : upper s = chars% "HEAD"
  · rw [h6]; exact .inl (by decide)
  by_cases h7 : upper s = chars% "UNDEFINED"
  · rw [h7]; exact .inl (by decide)
  · simp only [if_neg h1, if_neg h2, if_neg h3, if_neg h4, if_neg h5, if_neg h6, if_neg h7]
    exact .inr trivial

/-- `PUT` is no exception of case: no text at all gives it, its own name becomes an unknown method. -/
theorem C45_put (upper : Str → Str) (s : Str) :
    HttpMethod.fromStrSlice upper s ≠ .PUT ∧ (upper s = chars% "PUT" → HttpMethod.fromStrSlice upper s = .UNKNOWN (chars% "PUT")) := by
  have h2 : upper s = chars% "PUT" → HttpMethod.fromStrSlice upper s = .UNKNOWN (chars% "PUT") := by
    intro h
    unfold HttpMethod.fromStrSlice
    rw [h]
    decide
  refine ⟨fun h => ?_, h2⟩
  rcases C45_only upper s _ h with h1 | h1
  · have e : upper s = chars% "PUT" := by simpa [httpMethods] using h1
    rw [h2 e] at h
    cases h
  · cases h1

/-- Other texts are kept, in capital letters. -/
theorem C45_unknown (upper : Str → Str) (s : Str) (h : ∀ m, (upper s, m) ∉ httpMethods) :
    HttpMethod.fromStrSlice upper s = .UNKNOWN (upper s) := by
  rcases C45_only upper s _ rfl with h1 | h1
  · exact absurd h1 (h _)
  · exact h1

/-- Printing: the name of the method; an unknown one prints as `UNKNOWN("...")`, not as its name. -/
theorem C45_print (dbg : Str → Str) :
    (∀ name m, (name, m) ∈ httpMethods → m.toStr dbg = name) ∧
    ∀ v, (HttpMethod.UNKNOWN v).toStr dbg = chars% "UNKNOWN(" ++ dbg v ++ chars% ")" := by
  refine ⟨?_, fun v => rfl⟩
  intro name m h
  simp only [httpMethods, List.mem_cons, Prod.mk.injEq, List.not_mem_nil, or_false] at h
  rcases h with h | h | h | h | h | h | h | h <;> obtain ⟨rfl, rfl⟩ := h <;> rfl

/-- Reading the printed name gives the method back: all but `PUT`. -/
theorem C45_round_trip (upper : Str → Str) (hu : UpperCases upper) (dbg : Str → Str) (name : Str) (m : HttpMethod)
    (h : (name, m) ∈ httpMethods) (hp : m ≠ .PUT) : HttpMethod.fromStrSlice upper (m.toStr dbg) = m := by
  rw [(C45_print dbg).1 name m h]
  refine C45_known upper hu name m h hp name ?_ ?_
  · simp only [httpMethods, List.mem_cons, Prod.mk.injEq, List.not_mem_nil, or_false] at h
    rcases h with h | h | h | h | h | h | h | h <;> obtain ⟨rfl, _⟩ := h <;> simp [Ascii]
  · simp only [httpMethods, List.mem_cons, Prod.mk.injEq, List.not_mem_nil, or_false] at h
    rcases h with h | h | h | h | h | h | h | h <;> obtain ⟨rfl, _⟩ := h <;> decide

/-- `equals` is true of exactly the name of the method; every unknown method answers to `UNKNOWN`. -/
theorem C45_equals (m : HttpMethod) (s : Str) :
    m.equals s = true ↔ (s, m) ∈ httpMethods ∨ (s = chars% "UNKNOWN" ∧ ∃ v, m = .UNKNOWN v) := by
  cases m <;> simp [HttpMethod.equals, httpMethods]

/-- The same for the outcome of a firewall event. -/
theorem C45_outcome_equals (o : FirewallOutcome) (s : Str) : o.equals s = true ↔ s = o.toStr := by
  cases o <;> simp [FirewallOutcome.equals, FirewallOutcome.toStr]

example : UpperCases (fun s => s.map asciiUpper) := fun _ _ => rfl
example : HttpMethod.fromStrSlice (fun s => s.map asciiUpper) (chars% "oPtions") = .OPTIONS :=
  C45_known _ (fun _ _ => rfl) (chars% "OPTIONS") .OPTIONS (by decide) (by decide) _ (by simp [Ascii]) (by decide)
example : HttpMethod.fromStrSlice (fun s => s.map asciiUpper) (chars% "delete") = .UNKNOWN (chars% "DELETE") := by decide

end USiem
