import Verif.Model.EventWire
import Verif.Spec.EventWire
import Verif.Lemmas.Wire
/- Property C58: structured events as JSON. -/
set_option linter.unusedSimpArgs false
namespace USiem
open Json Spec

/-! ### Reading the parts -/

theorem internal_tag {tag s : Str} {m : List (Str × Json)} (h : tag ∉ m.map (·.1)) :
    internal tag (.obj ((tag, .str s) :: m)) = some (s, .obj m) := by
  have hv : valuesOf tag ((tag, .str s) :: m) = [.str s] := by
    have := valuesOf_of_not_mem h
    simp only [valuesOf] at this ⊢
    simp [this]
  have hf : ((tag, Json.str s) :: m).filter (fun e => e.1 != tag) = m := by
    rw [List.filter_cons_of_neg (by simp), List.filter_eq_self]
    intro e he
    simp only [bne_iff_ne, ne_eq]
    intro hh
    exact h (hh ▸ List.mem_map_of_mem he)
  simp only [internal, hv, hf]

theorem internal_twice {tag s : Str} {m : List (Str × Json)} (h : tag ∈ m.map (·.1)) :
    internal tag (.obj ((tag, .str s) :: m)) = none := by
  obtain ⟨e, he, rfl⟩ := List.mem_map.1 h
  have hv : ∃ a l, valuesOf e.1 ((e.1, .str s) :: m) = .str s :: a :: l := by
    simp only [valuesOf]
    rw [List.filter_cons_of_pos (by simp)]
    have hm : e ∈ m.filter (fun x => x.1 == e.1) := List.mem_filter.2 ⟨he, by simp⟩
    match hl : m.filter (fun x => x.1 == e.1) with
    | [] => rw [hl] at hm; cases hm
    | b :: t => exact ⟨b.2, t.map (·.2), by rw [hl]; rfl⟩
  obtain ⟨a, l, hv⟩ := hv
  simp only [internal, hv]

theorem deNames_str {α : Type} {name : α → Str} {all : List α} (hn : (all.map name).Nodup) {v : α} (hv : v ∈ all) :
    deNames name all (.str (name v)) = some v := by
  have : (all.map fun v => (name v, unitV v)).find? (fun e => e.1 == name v) = some (name v, unitV v) := by
    induction all with
    | nil => cases hv
    | cons a t ih =>
      simp only [List.map_cons, List.nodup_cons] at hn
      rcases List.mem_cons.1 hv with rfl | ht
      · simp
      · have hne : name a ≠ name v := fun h => hn.1 (h ▸ List.mem_map_of_mem ht)
        rw [List.map_cons, List.find?_cons_of_neg (by simpa using hne)]
        exact ih hn.2 ht
  simp only [deNames, enum, variant, this, unitV]

theorem FirewallOutcome.de_ser (v : FirewallOutcome) : FirewallOutcome.de (.str v.toStr) = some v := by cases v <;> rfl
theorem WebProxyOutcome.de_ser (v : WebProxyOutcome) : WebProxyOutcome.de (.str v.toStr) = some v := by cases v <;> rfl
theorem WebServerOutcome.de_ser (v : WebServerOutcome) : WebServerOutcome.de (.str v.toStr) = some v := by cases v <;> rfl
theorem IntrusionOutcome.de_ser (v : IntrusionOutcome) : IntrusionOutcome.de (.str v.toStr) = some v := by cases v <;> rfl
theorem IntrusionCategory.de_ser (v : IntrusionCategory) : IntrusionCategory.de (.str v.toStr) = some v := by cases v <;> rfl
theorem LoginOutcome.de_ser (v : LoginOutcome) : LoginOutcome.de (.str v.toStr) = some v := by cases v <;> rfl
theorem DnsEventType.de_ser (v : DnsEventType) : DnsEventType.de (.str v.toStr) = some v := by cases v <;> rfl
theorem DnsRecordType.de_ser (v : DnsRecordType) : DnsRecordType.de (.str v.toStr) = some v := by cases v <;> rfl
theorem DhcpRecordType.de_ser (v : DhcpRecordType) : DhcpRecordType.de (.str v.toStr) = some v := by cases v <;> rfl
theorem HttpMethod.ser_eq (v : HttpMethod) : v.ser = methodJson v := by cases v <;> rfl
theorem WebProtocol.ser_eq (v : WebProtocol) : v.ser = webProtocolJson v := by cases v <;> rfl
theorem WebProxyRuleCategory.ser_eq (v : WebProxyRuleCategory) : v.ser = categoryJson v := by cases v <;> rfl
theorem HttpMethod.de_ser (v : HttpMethod) : HttpMethod.de (methodJson v) = some v := by cases v <;> rfl
theorem WebProtocol.de_ser (v : WebProtocol) : WebProtocol.de (webProtocolJson v) = some v := by cases v <;> rfl
theorem WebProxyRuleCategory.de_ser (v : WebProxyRuleCategory) : WebProxyRuleCategory.de (categoryJson v) = some v := by
  cases v <;> rfl
theorem categoryJson_ne_null (v : WebProxyRuleCategory) : categoryJson v ≠ .null := by cases v <;> intro h <;> cases h

theorem NetworkProtocol.ofName_toStr {p : NetworkProtocol} (h : Nameable p) : NetworkProtocol.ofName (p.toStr id) = some p := by
  cases p with
  | OTHER t => exact absurd rfl (h t)
  | _ => rfl

theorem NetworkProtocol.de_ser {p : NetworkProtocol} (h : Nameable p) : NetworkProtocol.de (protocolJson p) = some p := by
  simp only [NetworkProtocol.de, protocolJson, internal_tag (m := []) List.not_mem_nil]
  exact NetworkProtocol.ofName_toStr h

theorem NetworkProtocol.deBuffered_ser {p : NetworkProtocol} (h : Nameable p) :
    NetworkProtocol.deBuffered (protocolJson p) = some p := by
  show (NetworkProtocol.ofName (p.toStr id)) = some p
  exact NetworkProtocol.ofName_toStr h

theorem NetworkProtocol.ser_eq {p : NetworkProtocol} (h : Nameable p) : p.ser = some (protocolJson p) := by
  cases p with
  | OTHER t => exact absurd rfl (h t)
  | _ => rfl

theorem nameable_or (p : NetworkProtocol) : Nameable p ∨ ∃ t, p = .OTHER t := by
  cases p with
  | OTHER t => exact .inr ⟨t, rfl⟩
  | _ => exact .inl (fun t h => by cases h)

theorem SiemIp.de_tagged (a : SiemIp) : SiemIp.de (taggedAddress a) = some a := by
  cases a with
  | v4 w => exact (congrArg (Option.map SiemIp.v4) (deU_serU w) :)
  | v6 w => exact (congrArg (Option.map SiemIp.v6) (deU_serU w) :)
theorem SiemIp.deBuffered_tagged {a : SiemIp} (h : IsV4 a) : SiemIp.deBuffered (taggedAddress a) = some a := by
  cases a with
  | v4 w => exact (congrArg (Option.map SiemIp.v4) (deU_serU w) :)
  | v6 w => exact h.elim
theorem SiemIp.deBuffered_v6 {a : SiemIp} (h : ¬ IsV4 a) : SiemIp.deBuffered (taggedAddress a) = none := by
  cases a with
  | v4 w => exact absurd trivial h
  | v6 w => rfl

theorem two_names {α : Type} {p q : Str × (Option Json → Option α)} {s : Str} (hp : p.2 none = none) (hq : q.2 none = none) :
    enum [p, q] (.str s) = none := by
  simp only [enum, variant]
  split
  · rfl
  · rename_i e he
    have := List.mem_of_find?_eq_some he
    simp only [List.mem_cons, List.not_mem_nil, or_false] at this
    rcases this with rfl | rfl
    · exact hp
    · exact hq
theorem SiemIp.de_printed (a : SiemIp) : SiemIp.de (printedAddress a) = none := two_names rfl rfl
theorem SiemIp.deBuffered_printed (a : SiemIp) : SiemIp.deBuffered (printedAddress a) = none := two_names rfl rfl

theorem deU_number {n : Nat} (w : BitVec n) : deU n (number w) = some w := deU_serU w
theorem deOpt_orNull {α : Type} {f : α → Json} {g : Json → Option α} {o : Option α} (h : ∀ a ∈ o, g (f a) = some a)
    (hn : ∀ a, f a ≠ .null) : deOpt g (orNull f o) = some o := by
  have : orNull f o = serOpt f o := by cases o <;> rfl
  rw [this]; exact deOpt_ser h hn
theorem orNull_str (o : Option Str) : deOpt deStr (orNull .str o) = some o :=
  deOpt_orNull (fun a _ => deStr_str a) (fun _ h => by cases h)

/-! ### The events, member by member -/

section parts
variable {ip : Json → Option SiemIp} {np : Json → Option NetworkProtocol} {mac : Json → Option (BitVec 128)} {rnd32 : Rat → F64}
  {address : SiemIp → Json}

theorem firewall_de (v : FirewallEvent) (h1 : ip (address v.sourceIp) = some v.sourceIp)
    (h2 : ip (address v.destinationIp) = some v.destinationIp) (h3 : np (protocolJson v.networkProtocol) = some v.networkProtocol) :
    FirewallEvent.deWith ip np (.obj (firewallMembers address v)) = some v := by
  simp only [FirewallEvent.deWith, firewallMembers]
  rw [fields_ser _ _ ?h1 ?h2]
  case h1 => rfl
  case h2 => decide +kernel
  simp -implicitDefEqProofs [req_some, deStr_str, deU_number, h1, h2, h3, FirewallOutcome.de_ser]

theorem firewall_none (v : FirewallEvent) (h : ip (address v.sourceIp) = none ∨ ip (address v.destinationIp) = none) :
    FirewallEvent.deWith ip np (.obj (firewallMembers address v)) = none := by
  simp only [FirewallEvent.deWith, firewallMembers]
  rw [fields_ser _ _ ?h1 ?h2]
  case h1 => rfl
  case h2 => decide +kernel
  rcases h with h | h
  · simp -implicitDefEqProofs [req_some, h]
  · simp -implicitDefEqProofs [req_some, h]

theorem intrusion_de (v : IntrusionEvent) (h1 : ip (address v.sourceIp) = some v.sourceIp)
    (h2 : ip (address v.destinationIp) = some v.destinationIp) (h3 : np (protocolJson v.networkProtocol) = some v.networkProtocol) :
    IntrusionEvent.deWith ip np (.obj (intrusionMembers address v)) = some v := by
  simp only [IntrusionEvent.deWith, intrusionMembers]
  rw [fields_ser _ _ ?h1 ?h2]
  case h1 => rfl
  case h2 => decide +kernel
  simp -implicitDefEqProofs [req_some, deStr_str, deU_number, h1, h2, h3, IntrusionOutcome.de_ser, IntrusionCategory.de_ser]

theorem intrusion_none (v : IntrusionEvent) (h : ip (address v.sourceIp) = none ∨ ip (address v.destinationIp) = none) :
    IntrusionEvent.deWith ip np (.obj (intrusionMembers address v)) = none := by
  simp only [IntrusionEvent.deWith, intrusionMembers]
  rw [fields_ser _ _ ?h1 ?h2]
  case h1 => rfl
  case h2 => decide +kernel
  rcases h with h | h
  · simp -implicitDefEqProofs [req_some, h]
  · simp -implicitDefEqProofs [req_some, h]

theorem webProxy_de (v : WebProxyEvent) (h1 : ip (address v.sourceIp) = some v.sourceIp)
    (h2 : ip (address v.destinationIp) = some v.destinationIp) :
    WebProxyEvent.deWith ip (.obj (webProxyMembers address v)) = some v := by
  simp only [WebProxyEvent.deWith, webProxyMembers]
  rw [fields_ser _ _ ?h1 ?h2]
  case h1 => rfl
  case h2 => decide +kernel
  simp -implicitDefEqProofs [req_some, reqOpt_some, deStr_str, deU_number, h1, h2, WebProxyOutcome.de_ser, HttpMethod.de_ser,
    WebProtocol.de_ser, orNull_str, deOpt_orNull (fun a _ => WebProxyRuleCategory.de_ser a) categoryJson_ne_null]

theorem webProxy_none (v : WebProxyEvent) (h : ip (address v.sourceIp) = none ∨ ip (address v.destinationIp) = none) :
    WebProxyEvent.deWith ip (.obj (webProxyMembers address v)) = none := by
  simp only [WebProxyEvent.deWith, webProxyMembers]
  rw [fields_ser _ _ ?h1 ?h2]
  case h1 => rfl
  case h2 => decide +kernel
  rcases h with h | h
  · simp -implicitDefEqProofs [req_some, h]
  · simp -implicitDefEqProofs [req_some, h]

theorem webServer_de (v : WebServerEvent) (h1 : ip (address v.sourceIp) = some v.sourceIp)
    (h2 : deOpt ip (orNull address v.destinationIp) = some v.destinationIp)
    (h3 : deF32 rnd32 (real v.duration) = some v.duration) :
    WebServerEvent.deWith ip rnd32 (.obj (webServerMembers address v)) = some v := by
  simp only [WebServerEvent.deWith, webServerMembers]
  rw [fields_ser _ _ ?h1 ?h2]
  case h1 => rfl
  case h2 => decide +kernel
  simp -implicitDefEqProofs [req_some, reqOpt_some, deStr_str, deU_number, h1, h2, h3, WebServerOutcome.de_ser, HttpMethod.de_ser,
    WebProtocol.de_ser]

theorem webServer_none (v : WebServerEvent) (h : ip (address v.sourceIp) = none ∨ deOpt ip (orNull address v.destinationIp) = none ∨
    deF32 rnd32 (real v.duration) = none) : WebServerEvent.deWith ip rnd32 (.obj (webServerMembers address v)) = none := by
  simp only [WebServerEvent.deWith, webServerMembers]
  rw [fields_ser _ _ ?h1 ?h2]
  case h1 => rfl
  case h2 => decide +kernel
  rcases h with h | h | h
  · simp -implicitDefEqProofs [req_some, h]
  · simp -implicitDefEqProofs [req_some, reqOpt_some, h]
  · simp -implicitDefEqProofs [req_some, h]

theorem dns_de (v : DnsEvent) (h1 : ip (address v.sourceIp) = some v.sourceIp)
    (h2 : ip (address v.destinationIp) = some v.destinationIp) : DnsEvent.deWith ip (.obj (dnsMembers address v)) = some v := by
  simp only [DnsEvent.deWith, dnsMembers]
  rw [fields_ser _ _ ?h1 ?h2]
  case h1 => rfl
  case h2 => decide +kernel
  simp -implicitDefEqProofs [req_some, reqOpt_some, deStr_str, h1, h2, DnsEventType.de_ser, DnsRecordType.de_ser, orNull_str]

theorem dns_none (v : DnsEvent) (h : ip (address v.sourceIp) = none ∨ ip (address v.destinationIp) = none) :
    DnsEvent.deWith ip (.obj (dnsMembers address v)) = none := by
  simp only [DnsEvent.deWith, dnsMembers]
  rw [fields_ser _ _ ?h1 ?h2]
  case h1 => rfl
  case h2 => decide +kernel
  rcases h with h | h
  · simp -implicitDefEqProofs [req_some, h]
  · simp -implicitDefEqProofs [req_some, h]

theorem dhcp_de (v : DhcpEvent) (h1 : ip (address v.sourceIp) = some v.sourceIp) (h2 : mac (number v.sourceMac) = some v.sourceMac) :
    DhcpEvent.deWith ip mac (.obj (dhcpMembers address v)) = some v := by
  simp only [DhcpEvent.deWith, dhcpMembers]
  rw [fields_ser _ _ ?h1 ?h2]
  case h1 => rfl
  case h2 => decide +kernel
  simp -implicitDefEqProofs [req_some, deStr_str, h1, h2, DhcpRecordType.de_ser]

theorem dhcp_none (v : DhcpEvent) (h : ip (address v.sourceIp) = none ∨ mac (number v.sourceMac) = none) :
    DhcpEvent.deWith ip mac (.obj (dhcpMembers address v)) = none := by
  simp only [DhcpEvent.deWith, dhcpMembers]
  rw [fields_ser _ _ ?h1 ?h2]
  case h1 => rfl
  case h2 => decide +kernel
  rcases h with h | h
  · simp -implicitDefEqProofs [req_some, h]
  · simp -implicitDefEqProofs [req_some, h]
end parts

theorem AuthLoginType.ser_eq (v : AuthLoginType) :
    v.ser = .obj [((loginMembers v).1, .obj ((loginMembers v).2.map fun e => (e.1, .str e.2)))] := by
  cases v <;> rfl

theorem login_local (a b : Str) :
    AuthLoginType.deLocal (.obj [(chars% "user_name", .str a), (chars% "domain", .str b)]) = some (.local a b) := by
  simp only [AuthLoginType.deLocal]
  rw [fields_ser _ _ ?h1 ?h2]
  case h1 => rfl
  case h2 => decide +kernel
  rfl
theorem login_remote (a b c : Str) :
    AuthLoginType.deRemote (.obj [(chars% "user_name", .str a), (chars% "domain", .str b), (chars% "source_address", .str c)]) =
      some (.remote a b c) := by
  simp only [AuthLoginType.deRemote]
  rw [fields_ser _ _ ?h1 ?h2]
  case h1 => rfl
  case h2 => decide +kernel
  rfl
theorem login_upgrade (a b c : Str) :
    AuthLoginType.deUpgrade (.obj [(chars% "source_user", .str a), (chars% "destination_user", .str b),
      (chars% "destination_domain", .str c)]) = some (.upgrade a b c) := by
  simp only [AuthLoginType.deUpgrade]
  rw [fields_ser _ _ ?h1 ?h2]
  case h1 => rfl
  case h2 => decide +kernel
  rfl
theorem login_validation (a b : Str) :
    AuthLoginType.deValidation (.obj [(chars% "user_name", .str a), (chars% "source_address", .str b)]) = some (.validation a b) := by
  simp only [AuthLoginType.deValidation]
  rw [fields_ser _ _ ?h1 ?h2]
  case h1 => rfl
  case h2 => decide +kernel
  rfl
theorem login_delegation (a b c d : Str) :
    AuthLoginType.deDelegation (.obj [(chars% "source_user", .str a), (chars% "source_domain", .str b),
      (chars% "destination_user", .str c), (chars% "destination_domain", .str d)]) = some (.delegation a b c d) := by
  simp only [AuthLoginType.deDelegation]
  rw [fields_ser _ _ ?h1 ?h2]
  case h1 => rfl
  case h2 => decide +kernel
  rfl

theorem AuthLoginType.de_ser (v : AuthLoginType) : AuthLoginType.de v.ser = some v := by
  cases v with
  | «local» a b =>
    refine (enum_tagged (d := newV AuthLoginType.deLocal id) rfl).trans ?_
    rw [newV_some, login_local]; rfl
  | remote a b c =>
    refine (enum_tagged (d := newV AuthLoginType.deRemote id) rfl).trans ?_
    rw [newV_some, login_remote]; rfl
  | upgrade a b c =>
    refine (enum_tagged (d := newV AuthLoginType.deUpgrade id) rfl).trans ?_
    rw [newV_some, login_upgrade]; rfl
  | validation a b =>
    refine (enum_tagged (d := newV AuthLoginType.deValidation id) rfl).trans ?_
    rw [newV_some, login_validation]; rfl
  | delegation a b c d =>
    refine (enum_tagged (d := newV AuthLoginType.deDelegation id) rfl).trans ?_
    rw [newV_some, login_delegation]; rfl

theorem auth_de (v : AuthEvent) : AuthEvent.deWith (.obj (authMembers v)) = some v := by
  simp only [AuthEvent.deWith, authMembers, ← AuthLoginType.ser_eq]
  rw [fields_ser _ _ ?h1 ?h2]
  case h1 => rfl
  case h2 => decide +kernel
  simp -implicitDefEqProofs [req_some, deStr_str, AuthLoginType.de_ser, LoginOutcome.de_ser]

/-! ### Free documents -/

mutual
theorem readValue_value (u : Ambient) : ∀ j : Json, IsValue j → readValue u j = some j
  | .null, _ => rfl
  | .bool _, _ => rfl
  | .int i, h => by
    simp only [IsValue] at h
    simp only [readValue]
    rw [if_pos h]
  | .float _, _ => rfl
  | .str _, _ => rfl
  | .arr l, h => by
    simp only [IsValue] at h
    simp only [readValue, readValues_values u l h, Option.map_some]
  | .obj kvs, h => by
    simp only [IsValue] at h
    simp only [readValue, readMembers_members u kvs h.2, Option.map_some, ofList_of_sorted h.1]
theorem readValues_values (u : Ambient) : ∀ l : List Json, AreValues l → readValues u l = some l
  | [], _ => rfl
  | j :: t, h => by
    simp only [AreValues] at h
    simp only [readValues, readValue_value u j h.1, readValues_values u t h.2, Option.bind_some, Option.map_some]
theorem readMembers_members (u : Ambient) : ∀ l : List (Str × Json), AreMembers l → readMembers u l = some l
  | [], _ => rfl
  | e :: t, h => by
    simp only [AreMembers] at h
    simp only [readMembers, readValue_value u e.2 h.1, readMembers_members u t h.2, Option.bind_some, Option.map_some]
end

/-! ### C58. Structured events as JSON -/

theorem serOpt_eq {α : Type} (f : α → Json) (o : Option α) : serOpt f o = orNull f o := by cases o <;> rfl
theorem serF_eq (x : F64) : serF x = real x := by cases x <;> rfl
theorem category_fun : WebProxyRuleCategory.ser = categoryJson := funext WebProxyRuleCategory.ser_eq

/-- C58. What is written: an object whose first member `event_type` names the kind of the event and whose other members are those
of the event, addresses as text. -/
theorem C58_written (e : SiemEvent) (h : Writable e) : e.ser = some (eventJson printedAddress e) := by
  cases e with
  | firewall v => simp only [SiemEvent.ser, SiemEvent.members, FirewallEvent.members, NetworkProtocol.ser_eq h]; rfl
  | intrusion v => simp only [SiemEvent.ser, SiemEvent.members, IntrusionEvent.members, NetworkProtocol.ser_eq h]; rfl
  | webProxy v =>
    simp only [SiemEvent.ser, SiemEvent.members, WebProxyEvent.members, HttpMethod.ser_eq, WebProtocol.ser_eq, serOpt_eq,
      category_fun]; rfl
  | webServer v =>
    simp only [SiemEvent.ser, SiemEvent.members, WebServerEvent.members, HttpMethod.ser_eq, WebProtocol.ser_eq, serOpt_eq, serF_eq]
    rfl
  | dns v =>
    simp only [SiemEvent.ser, SiemEvent.members, DnsEvent.members, serOpt_eq]; rfl
  | dhcp v => rfl
  | auth v => simp only [SiemEvent.ser, SiemEvent.members, AuthEvent.members, AuthLoginType.ser_eq]; rfl
  | json v =>
    rcases h with rfl | ⟨kvs, rfl⟩ <;> rfl
  | _ => rfl

/-- C58. Everything else is an error: an event whose network protocol has no name of its own (`OTHER`), and a free document that is
neither an object nor null. -/
theorem C58_not_written (e : SiemEvent) (h : ¬ Writable e) : e.ser = none := by
  cases e with
  | firewall v =>
    rcases nameable_or v.networkProtocol with hp | ⟨t, hp⟩
    · exact absurd hp h
    · simp only [SiemEvent.ser, SiemEvent.members, FirewallEvent.members, hp]; rfl
  | intrusion v =>
    rcases nameable_or v.networkProtocol with hp | ⟨t, hp⟩
    · exact absurd hp h
    · simp only [SiemEvent.ser, SiemEvent.members, IntrusionEvent.members, hp]; rfl
  | json v =>
    cases v with
    | null => exact absurd (.inl rfl) h
    | obj kvs => exact absurd (.inr ⟨kvs, rfl⟩) h
    | _ => rfl
  | _ => exact absurd trivial h

theorem event_type_fresh (address : SiemIp → Json) (e : SiemEvent) (h : ∀ kvs, e ≠ .json (.obj kvs)) :
    chars% "event_type" ∉ (eventDocument address e).2.map (·.1) := by
  cases e with
  | firewall v => simp [eventDocument, firewallMembers]
  | intrusion v => simp [eventDocument, intrusionMembers]
  | webProxy v => simp [eventDocument, webProxyMembers]
  | webServer v => simp [eventDocument, webServerMembers]
  | dns v => simp [eventDocument, dnsMembers]
  | dhcp v => simp [eventDocument, dhcpMembers]
  | auth v => simp [eventDocument, authMembers]
  | json v =>
    cases v with
    | obj kvs => exact absurd rfl (h kvs)
    | _ => simp [eventDocument]
  | _ => simp [eventDocument]

section payload
variable (u : Ambient) (rnd32 : Rat → F64) (j : Json)
theorem payload_firewall : SiemEvent.dePayload u rnd32 (chars% "Firewall") j =
    (FirewallEvent.deWith SiemIp.deBuffered NetworkProtocol.deBuffered j).map .firewall := by simp [SiemEvent.dePayload]
theorem payload_intrusion : SiemEvent.dePayload u rnd32 (chars% "Intrusion") j =
    (IntrusionEvent.deWith SiemIp.deBuffered NetworkProtocol.deBuffered j).map .intrusion := by simp [SiemEvent.dePayload]
theorem payload_webProxy : SiemEvent.dePayload u rnd32 (chars% "WebProxy") j =
    (WebProxyEvent.deWith SiemIp.deBuffered j).map .webProxy := by simp [SiemEvent.dePayload]
theorem payload_webServer : SiemEvent.dePayload u rnd32 (chars% "WebServer") j =
    (WebServerEvent.deWith SiemIp.deBuffered rnd32 j).map .webServer := by simp [SiemEvent.dePayload]
theorem payload_dns : SiemEvent.dePayload u rnd32 (chars% "DNS") j = (DnsEvent.deWith SiemIp.deBuffered j).map .dns := by
  simp [SiemEvent.dePayload]
theorem payload_dhcp : SiemEvent.dePayload u rnd32 (chars% "DHCP") j =
    (DhcpEvent.deWith SiemIp.deBuffered (fun _ => none) j).map .dhcp := by simp [SiemEvent.dePayload]
theorem payload_auth : SiemEvent.dePayload u rnd32 (chars% "Auth") j = (AuthEvent.deWith j).map .auth := by
  simp [SiemEvent.dePayload]
theorem payload_json : SiemEvent.dePayload u rnd32 (chars% "Json") j = (readValue u j).map .json := by
  simp [SiemEvent.dePayload]
theorem de_eventJson (address : SiemIp → Json) (e : SiemEvent) (h : ∀ kvs, e ≠ .json (.obj kvs)) :
    SiemEvent.de u rnd32 (eventJson address e) =
      SiemEvent.dePayload u rnd32 (eventDocument address e).1 (.obj (eventDocument address e).2) := by
  rw [SiemEvent.de, eventJson, internal_tag (event_type_fresh _ e h)]
  rfl
end payload

/-- C58. Events without addresses come back as they were: authentications and the kinds without data. -/
theorem C58_round_trip (u : Ambient) (rnd32 : Rat → F64) (e : SiemEvent) (h : ¬ HasAddress e) (hj : ∀ v, e ≠ .json v) :
    ∃ d, e.ser = some d ∧ SiemEvent.de u rnd32 d = some e := by
  refine ⟨eventJson printedAddress e, C58_written e ?_, ?_⟩
  · cases e with
    | json v => exact absurd rfl (hj v)
    | firewall | intrusion => exact absurd trivial h
    | _ => trivial
  · rw [de_eventJson u rnd32 _ e (fun kvs => hj _)]
    cases e with
    | firewall | intrusion | webProxy | webServer | dns | dhcp => exact absurd trivial h
    | json v => exact absurd rfl (hj v)
    | auth v =>
      show SiemEvent.dePayload u rnd32 (chars% "Auth") (.obj (authMembers v)) = _
      refine (payload_auth _ _ _).trans ?_
      rw [auth_de]; rfl
    | _ => rfl

example : ∃ d, SiemEvent.ser (.auth ⟨.remote (chars% "root") (chars% "CONTOSO") (chars% "10.0.0.1"), .FAIL, chars% "srv"⟩) = some d ∧
    SiemEvent.de ⟨fun _ => [], fun _ => [], fun _ => .nan, id⟩ (fun _ => .nan) d =
      some (.auth ⟨.remote (chars% "root") (chars% "CONTOSO") (chars% "10.0.0.1"), .FAIL, chars% "srv"⟩) :=
  C58_round_trip _ _ _ (fun h => h) (fun _ h => by cases h)

/-- C58. Events with addresses are written but what is written is never read again, as an event or as the particular kind. -/
theorem C58_addresses_never_read (u : Ambient) (rnd32 : Rat → F64) (e : SiemEvent) (h : HasAddress e) (d : Json)
    (hd : e.ser = some d) : SiemEvent.de u rnd32 d = none := by
  have hw : Writable e := Classical.byContradiction fun hn => by rw [C58_not_written e hn] at hd; cases hd
  rw [C58_written e hw] at hd
  cases hd
  rw [de_eventJson u rnd32 _ e (fun kvs he => by rw [he] at h; exact h)]
  cases e with
  | firewall v =>
    show SiemEvent.dePayload u rnd32 (chars% "Firewall") (.obj (firewallMembers printedAddress v)) = _
    refine (payload_firewall _ _ _).trans ?_
    rw [firewall_none v (.inl (SiemIp.deBuffered_printed _))]; rfl
  | intrusion v =>
    show SiemEvent.dePayload u rnd32 (chars% "Intrusion") (.obj (intrusionMembers printedAddress v)) = _
    refine (payload_intrusion _ _ _).trans ?_
    rw [intrusion_none v (.inl (SiemIp.deBuffered_printed _))]; rfl
  | webProxy v =>
    show SiemEvent.dePayload u rnd32 (chars% "WebProxy") (.obj (webProxyMembers printedAddress v)) = _
    refine (payload_webProxy _ _ _).trans ?_
    rw [webProxy_none v (.inl (SiemIp.deBuffered_printed _))]; rfl
  | webServer v =>
    show SiemEvent.dePayload u rnd32 (chars% "WebServer") (.obj (webServerMembers printedAddress v)) = _
    refine (payload_webServer _ _ _).trans ?_
    rw [webServer_none v (.inl (SiemIp.deBuffered_printed _))]; rfl
  | dns v =>
    show SiemEvent.dePayload u rnd32 (chars% "DNS") (.obj (dnsMembers printedAddress v)) = _
    refine (payload_dns _ _ _).trans ?_
    rw [dns_none v (.inl (SiemIp.deBuffered_printed _))]; rfl
  | dhcp v =>
    show SiemEvent.dePayload u rnd32 (chars% "DHCP") (.obj (dhcpMembers printedAddress v)) = _
    refine (payload_dhcp _ _ _).trans ?_
    rw [dhcp_none v (.inl (SiemIp.deBuffered_printed _))]; rfl
  | _ => exact h.elim

/-- An event to check that the hypotheses can be met. -/
def exampleFirewall : FirewallEvent :=
  ⟨.v4 0xC0A80101#32, .v4 0x0A000001#32, 1000#16, 443#16, .TCP, .ALLOW, 10#32, 20#32, chars% "eth0", chars% "eth1"⟩

example : SiemEvent.de ⟨fun _ => [], fun _ => [], fun _ => .nan, id⟩ (fun _ => .nan)
    (eventJson printedAddress (.firewall exampleFirewall)) = none :=
  C58_addresses_never_read _ _ (.firewall exampleFirewall) trivial _ (C58_written _ (fun t h => by cases h))

/-- The addresses of an event that must be IPv4, the protocol that must have a name, the duration that must be an `f32`, for the
document with addresses in the other notation to be read. -/
def ReadableWithTags (rnd32 : Rat → F64) : SiemEvent → Prop
  | .firewall v => IsV4 v.sourceIp ∧ IsV4 v.destinationIp ∧ Nameable v.networkProtocol
  | .intrusion v => IsV4 v.sourceIp ∧ IsV4 v.destinationIp ∧ Nameable v.networkProtocol
  | .webProxy v => IsV4 v.sourceIp ∧ IsV4 v.destinationIp
  | .webServer v => IsV4 v.sourceIp ∧ (∀ a ∈ v.destinationIp, IsV4 a) ∧ ∃ q, v.duration = .fin q ∧ rnd32 q = .fin q
  | .dns v => IsV4 v.sourceIp ∧ IsV4 v.destinationIp
  | .dhcp _ => False
  | _ => True

theorem taggedAddress_ne_null (a : SiemIp) : taggedAddress a ≠ .null := by cases a <;> intro h <;> cases h

/-- C58. The notation in which addresses are read is `{"V4": number}`: the same document with its addresses in that notation is
read as the event, provided that they are IPv4 addresses (and that it is not a DHCP event). -/
theorem C58_reads_tagged (u : Ambient) (rnd32 : Rat → F64) (e : SiemEvent) (ha : HasAddress e) (h : ReadableWithTags rnd32 e) :
    SiemEvent.de u rnd32 (eventJson taggedAddress e) = some e := by
  rw [de_eventJson u rnd32 _ e (fun kvs he => by rw [he] at ha; exact ha)]
  cases e with
  | firewall v =>
    show SiemEvent.dePayload u rnd32 (chars% "Firewall") (.obj (firewallMembers taggedAddress v)) = _
    refine (payload_firewall _ _ _).trans ?_
    rw [firewall_de v (SiemIp.deBuffered_tagged h.1) (SiemIp.deBuffered_tagged h.2.1) (NetworkProtocol.deBuffered_ser h.2.2)]; rfl
  | intrusion v =>
    show SiemEvent.dePayload u rnd32 (chars% "Intrusion") (.obj (intrusionMembers taggedAddress v)) = _
    refine (payload_intrusion _ _ _).trans ?_
    rw [intrusion_de v (SiemIp.deBuffered_tagged h.1) (SiemIp.deBuffered_tagged h.2.1) (NetworkProtocol.deBuffered_ser h.2.2)]; rfl
  | webProxy v =>
    show SiemEvent.dePayload u rnd32 (chars% "WebProxy") (.obj (webProxyMembers taggedAddress v)) = _
    refine (payload_webProxy _ _ _).trans ?_
    rw [webProxy_de v (SiemIp.deBuffered_tagged h.1) (SiemIp.deBuffered_tagged h.2)]; rfl
  | webServer v =>
    obtain ⟨h1, h2, q, hq, hr⟩ := h
    show SiemEvent.dePayload u rnd32 (chars% "WebServer") (.obj (webServerMembers taggedAddress v)) = _
    refine (payload_webServer _ _ _).trans ?_
    rw [webServer_de v (SiemIp.deBuffered_tagged h1)
      (deOpt_orNull (fun a ha => SiemIp.deBuffered_tagged (h2 a ha)) taggedAddress_ne_null)
      (by rw [hq]; exact congrArg some hr)]
    rfl
  | dns v =>
    show SiemEvent.dePayload u rnd32 (chars% "DNS") (.obj (dnsMembers taggedAddress v)) = _
    refine (payload_dns _ _ _).trans ?_
    rw [dns_de v (SiemIp.deBuffered_tagged h.1) (SiemIp.deBuffered_tagged h.2)]; rfl
  | dhcp v => exact h.elim
  | _ => exact ha.elim

example : SiemEvent.de ⟨fun _ => [], fun _ => [], fun _ => .nan, id⟩ (fun _ => .nan)
    (eventJson taggedAddress (.firewall exampleFirewall)) = some (.firewall exampleFirewall) :=
  C58_reads_tagged _ _ (.firewall exampleFirewall) trivial ⟨trivial, trivial, fun t h => by cases h⟩

/-- C58. An IPv6 address is not read inside an event in any notation, nor is a DHCP event at all: the document is an error. -/
theorem C58_v6_and_dhcp_never_read (u : Ambient) (rnd32 : Rat → F64) (e : SiemEvent)
    (h : match e with
      | .firewall v => ¬ IsV4 v.sourceIp ∨ ¬ IsV4 v.destinationIp
      | .intrusion v => ¬ IsV4 v.sourceIp ∨ ¬ IsV4 v.destinationIp
      | .webProxy v => ¬ IsV4 v.sourceIp ∨ ¬ IsV4 v.destinationIp
      | .webServer v => ¬ IsV4 v.sourceIp ∨ ∃ a, v.destinationIp = some a ∧ ¬ IsV4 a
      | .dns v => ¬ IsV4 v.sourceIp ∨ ¬ IsV4 v.destinationIp
      | .dhcp _ => True
      | _ => False) : SiemEvent.de u rnd32 (eventJson taggedAddress e) = none := by
  rw [de_eventJson u rnd32 _ e (fun kvs he => by rw [he] at h; exact h)]
  cases e with
  | firewall v =>
    show SiemEvent.dePayload u rnd32 (chars% "Firewall") (.obj (firewallMembers taggedAddress v)) = _
    refine (payload_firewall _ _ _).trans ?_
    rw [firewall_none v (h.imp SiemIp.deBuffered_v6 SiemIp.deBuffered_v6)]; rfl
  | intrusion v =>
    show SiemEvent.dePayload u rnd32 (chars% "Intrusion") (.obj (intrusionMembers taggedAddress v)) = _
    refine (payload_intrusion _ _ _).trans ?_
    rw [intrusion_none v (h.imp SiemIp.deBuffered_v6 SiemIp.deBuffered_v6)]; rfl
  | webProxy v =>
    show SiemEvent.dePayload u rnd32 (chars% "WebProxy") (.obj (webProxyMembers taggedAddress v)) = _
    refine (payload_webProxy _ _ _).trans ?_
    rw [webProxy_none v (h.imp SiemIp.deBuffered_v6 SiemIp.deBuffered_v6)]; rfl
  | webServer v =>
    show SiemEvent.dePayload u rnd32 (chars% "WebServer") (.obj (webServerMembers taggedAddress v)) = _
    refine (payload_webServer _ _ _).trans ?_
    rw [webServer_none v (h.imp SiemIp.deBuffered_v6 fun ⟨a, ha, hv⟩ => .inl (by
      rw [ha]
      cases a with
      | v4 w => exact absurd trivial hv
      | v6 w => rfl))]; rfl
  | dns v =>
    show SiemEvent.dePayload u rnd32 (chars% "DNS") (.obj (dnsMembers taggedAddress v)) = _
    refine (payload_dns _ _ _).trans ?_
    rw [dns_none v (h.imp SiemIp.deBuffered_v6 SiemIp.deBuffered_v6)]; rfl
  | dhcp v =>
    show SiemEvent.dePayload u rnd32 (chars% "DHCP") (.obj (dhcpMembers taggedAddress v)) = _
    refine (payload_dhcp _ _ _).trans ?_
    rw [dhcp_none v (.inr rfl)]; rfl
  | _ => exact h.elim

example : SiemEvent.de ⟨fun _ => [], fun _ => [], fun _ => .nan, id⟩ (fun _ => .nan)
    (eventJson taggedAddress (.dhcp ⟨.v4 0xC0A80101#32, 0x1#128, .Assign, chars% "pc", chars% "srv"⟩)) = none :=
  C58_v6_and_dhcp_never_read _ _ _ trivial

/-- C58. Read on their own, not inside an event, the kinds with addresses accept addresses of both families in that notation. -/
theorem C58_direct_reading (rnd32 : Rat → F64) :
    (∀ v : FirewallEvent, Nameable v.networkProtocol →
      FirewallEvent.deWith SiemIp.de NetworkProtocol.de (.obj (firewallMembers taggedAddress v)) = some v) ∧
    (∀ v : IntrusionEvent, Nameable v.networkProtocol →
      IntrusionEvent.deWith SiemIp.de NetworkProtocol.de (.obj (intrusionMembers taggedAddress v)) = some v) ∧
    (∀ v : WebProxyEvent, WebProxyEvent.deWith SiemIp.de (.obj (webProxyMembers taggedAddress v)) = some v) ∧
    (∀ v : WebServerEvent, (∃ q, v.duration = .fin q ∧ rnd32 q = .fin q) →
      WebServerEvent.deWith SiemIp.de rnd32 (.obj (webServerMembers taggedAddress v)) = some v) ∧
    (∀ v : DnsEvent, DnsEvent.deWith SiemIp.de (.obj (dnsMembers taggedAddress v)) = some v) ∧
    (∀ v : DhcpEvent, DhcpEvent.deWith SiemIp.de (deU 128) (.obj (dhcpMembers taggedAddress v)) = some v) ∧
    (∀ v : AuthEvent, AuthEvent.deWith (.obj (authMembers v)) = some v) := by
  refine ⟨fun v h => firewall_de v (SiemIp.de_tagged _) (SiemIp.de_tagged _) (NetworkProtocol.de_ser h),
    fun v h => intrusion_de v (SiemIp.de_tagged _) (SiemIp.de_tagged _) (NetworkProtocol.de_ser h),
    fun v => webProxy_de v (SiemIp.de_tagged _) (SiemIp.de_tagged _), ?_,
    fun v => dns_de v (SiemIp.de_tagged _) (SiemIp.de_tagged _), fun v => dhcp_de v (SiemIp.de_tagged _) (deU_number _), auth_de⟩
  rintro v ⟨q, hq, hr⟩
  exact webServer_de v (SiemIp.de_tagged _) (deOpt_orNull (fun a _ => SiemIp.de_tagged a) taggedAddress_ne_null)
    (by rw [hq]; exact congrArg some hr)

/-- C58. Read on their own, the documents the library writes for the kinds with addresses are errors too. -/
theorem C58_direct_never_read (rnd32 : Rat → F64) :
    (∀ v : FirewallEvent, FirewallEvent.deWith SiemIp.de NetworkProtocol.de (.obj (firewallMembers printedAddress v)) = none) ∧
    (∀ v : IntrusionEvent, IntrusionEvent.deWith SiemIp.de NetworkProtocol.de (.obj (intrusionMembers printedAddress v)) = none) ∧
    (∀ v : WebProxyEvent, WebProxyEvent.deWith SiemIp.de (.obj (webProxyMembers printedAddress v)) = none) ∧
    (∀ v : WebServerEvent, WebServerEvent.deWith SiemIp.de rnd32 (.obj (webServerMembers printedAddress v)) = none) ∧
    (∀ v : DnsEvent, DnsEvent.deWith SiemIp.de (.obj (dnsMembers printedAddress v)) = none) ∧
    (∀ v : DhcpEvent, DhcpEvent.deWith SiemIp.de (deU 128) (.obj (dhcpMembers printedAddress v)) = none) :=
  ⟨fun v => firewall_none v (.inl (SiemIp.de_printed _)), fun v => intrusion_none v (.inl (SiemIp.de_printed _)),
   fun v => webProxy_none v (.inl (SiemIp.de_printed _)), fun v => webServer_none v (.inl (SiemIp.de_printed _)),
   fun v => dns_none v (.inl (SiemIp.de_printed _)), fun v => dhcp_none v (.inl (SiemIp.de_printed _))⟩

/-! ### Free documents -/

/-- C58. A free document that is an object comes back as it was exactly when it has no member `event_type`; with one, the result
has two and is refused. -/
theorem C58_free_document (u : Ambient) (rnd32 : Rat → F64) (kvs : List (Str × Json)) (hv : IsValue (.obj kvs)) :
    SiemEvent.ser (.json (.obj kvs)) = some (.obj ((chars% "event_type", .str (chars% "Json")) :: kvs)) ∧
    SiemEvent.de u rnd32 (.obj ((chars% "event_type", .str (chars% "Json")) :: kvs)) =
      if chars% "event_type" ∈ kvs.map (·.1) then none else some (.json (.obj kvs)) := by
  refine ⟨rfl, ?_⟩
  rw [SiemEvent.de]
  split
  · rename_i h
    rw [internal_twice h]; rfl
  · rename_i h
    rw [internal_tag h]
    show SiemEvent.dePayload u rnd32 (chars% "Json") (.obj kvs) = _
    refine (payload_json _ _ _).trans ?_
    rw [readValue_value u _ hv]; rfl

/-- C58. The free document null comes back as the empty object. -/
theorem C58_null_document (u : Ambient) (rnd32 : Rat → F64) :
    SiemEvent.ser (.json .null) = some (.obj [(chars% "event_type", .str (chars% "Json"))]) ∧
    SiemEvent.de u rnd32 (.obj [(chars% "event_type", .str (chars% "Json"))]) = some (.json (.obj [])) := by
  refine ⟨rfl, ?_⟩
  rw [SiemEvent.de, internal_tag (m := []) List.not_mem_nil]
  rfl

example (u : Ambient) (rnd32 : Rat → F64) :
    SiemEvent.de u rnd32 (.obj [(chars% "event_type", .str (chars% "Json")), (chars% "EventID", .int 4624),
      (chars% "Host", .arr [.str (chars% "a"), .null])]) =
    some (.json (.obj [(chars% "EventID", .int 4624), (chars% "Host", .arr [.str (chars% "a"), .null])])) := by
  refine (C58_free_document u rnd32 _ ?_).2.trans (if_neg (by decide +kernel))
  refine ⟨OMap.sorted_of_sortedB _ (by decide +kernel), ?_⟩
  exact ⟨⟨by decide, by decide⟩, ⟨trivial, trivial, trivial⟩, trivial⟩

/-! ### The protocol and the other enumerations -/

/-- C58. A network protocol is written, as its name, exactly when it has a name of its own, and then it comes back; `OTHER` is
neither written nor read. -/
theorem C58_protocol (p : NetworkProtocol) :
    (Nameable p → p.ser = some (protocolJson p) ∧ NetworkProtocol.de (protocolJson p) = some p) ∧
    (¬ Nameable p → p.ser = none) ∧ (∀ j t, NetworkProtocol.de j ≠ some (.OTHER t) ∧ NetworkProtocol.deBuffered j ≠ some (.OTHER t)) := by
  have hb : (NetworkProtocol.all.all fun p => match p with | .OTHER _ => false | _ => true) = true := by decide +kernel
  have hall : ∀ p ∈ NetworkProtocol.all, ∀ t, p ≠ .OTHER t := by
    intro p hp t h
    subst h
    have := List.all_eq_true.1 hb _ hp
    cases this
  have hn : ∀ s t, NetworkProtocol.ofName s ≠ some (.OTHER t) := fun s t h => hall _ (List.mem_of_find?_eq_some h) t rfl
  have hi : ∀ n t, NetworkProtocol.ofIndex n ≠ some (.OTHER t) := by
    intro n t h
    unfold NetworkProtocol.ofIndex at h
    split at h
    · exact hall _ (List.mem_of_getElem? h) t rfl
    · split at h
      · cases h
      · cases h
  refine ⟨fun h => ⟨NetworkProtocol.ser_eq h, NetworkProtocol.de_ser h⟩, fun h => ?_, fun j t => ⟨?_, ?_⟩⟩
  · rcases nameable_or p with hp | ⟨t, rfl⟩
    · exact absurd hp h
    · rfl
  · intro h
    simp only [NetworkProtocol.de, Option.bind_eq_bind, Option.bind_eq_some_iff] at h
    obtain ⟨⟨s, r⟩, _, _, _, h⟩ := h
    exact hn _ _ h
  · intro h
    simp only [NetworkProtocol.deBuffered, Option.bind_eq_bind, Option.bind_eq_some_iff] at h
    obtain ⟨⟨s, r⟩, _, _, _, h⟩ := h
    cases s with
    | inl s => exact hn _ _ h
    | inr n => exact hi _ _ h

/-- C58. The other enumerations are written as the name of the variant (with its text if it has one) and come back. -/
theorem C58_enumerations :
    (∀ v : FirewallOutcome, v.ser = .str v.toStr ∧ FirewallOutcome.de v.ser = some v) ∧
    (∀ v : WebProxyOutcome, v.ser = .str v.toStr ∧ WebProxyOutcome.de v.ser = some v) ∧
    (∀ v : WebServerOutcome, v.ser = .str v.toStr ∧ WebServerOutcome.de v.ser = some v) ∧
    (∀ v : IntrusionOutcome, v.ser = .str v.toStr ∧ IntrusionOutcome.de v.ser = some v) ∧
    (∀ v : IntrusionCategory, v.ser = .str v.toStr ∧ IntrusionCategory.de v.ser = some v) ∧
    (∀ v : LoginOutcome, v.ser = .str v.toStr ∧ LoginOutcome.de v.ser = some v) ∧
    (∀ v : DnsEventType, v.ser = .str v.toStr ∧ DnsEventType.de v.ser = some v) ∧
    (∀ v : DnsRecordType, v.ser = .str v.toStr ∧ DnsRecordType.de v.ser = some v) ∧
    (∀ v : DhcpRecordType, v.ser = .str v.toStr ∧ DhcpRecordType.de v.ser = some v) ∧
    (∀ v : HttpMethod, v.ser = methodJson v ∧ HttpMethod.de v.ser = some v) ∧
    (∀ v : WebProtocol, v.ser = webProtocolJson v ∧ WebProtocol.de v.ser = some v) ∧
    (∀ v : WebProxyRuleCategory, v.ser = categoryJson v ∧ WebProxyRuleCategory.de v.ser = some v) ∧
    (∀ v : AuthLoginType, AuthLoginType.de v.ser = some v) :=
  ⟨fun v => ⟨rfl, FirewallOutcome.de_ser v⟩, fun v => ⟨rfl, WebProxyOutcome.de_ser v⟩, fun v => ⟨rfl, WebServerOutcome.de_ser v⟩,
   fun v => ⟨rfl, IntrusionOutcome.de_ser v⟩, fun v => ⟨rfl, IntrusionCategory.de_ser v⟩, fun v => ⟨rfl, LoginOutcome.de_ser v⟩,
   fun v => ⟨rfl, DnsEventType.de_ser v⟩, fun v => ⟨rfl, DnsRecordType.de_ser v⟩, fun v => ⟨rfl, DhcpRecordType.de_ser v⟩,
   fun v => ⟨HttpMethod.ser_eq v, by rw [HttpMethod.ser_eq]; exact HttpMethod.de_ser v⟩,
   fun v => ⟨WebProtocol.ser_eq v, by rw [WebProtocol.ser_eq]; exact WebProtocol.de_ser v⟩,
   fun v => ⟨WebProxyRuleCategory.ser_eq v, by rw [WebProxyRuleCategory.ser_eq]; exact WebProxyRuleCategory.de_ser v⟩,
   AuthLoginType.de_ser⟩

theorem payload_kind {u : Ambient} {rnd32 : Rat → F64} {s : Str} {rest : Json} {e : SiemEvent}
    (h : SiemEvent.dePayload u rnd32 s rest = some e) : e.tagName = s := by
  unfold SiemEvent.dePayload at h
  have step : ∀ {t : Str} {a b : Option SiemEvent}, (if s = t then a else b) = some e → (s = t ∧ a = some e) ∨ b = some e := by
    intro t a b hh
    by_cases hs : s = t
    · rw [if_pos hs] at hh; exact .inl ⟨hs, hh⟩
    · rw [if_neg hs] at hh; exact .inr hh
  iterate 18
    replace h := step h
    rcases h with ⟨rfl, h⟩ | h
    · first
        | (cases h; rfl)
        | (obtain ⟨v, -, rfl⟩ := Option.map_eq_some_iff.1 h; rfl)
  cases h

/-- C58. An event document names its kind once, as a text: without `event_type`, or with one that is no kind, nothing is read. -/
theorem C58_kind_required (u : Ambient) (rnd32 : Rat → F64) (kvs : List (Str × Json)) (e : SiemEvent)
    (h : SiemEvent.de u rnd32 (.obj kvs) = some e) :
    valuesOf (chars% "event_type") kvs = [.str e.tagName] := by
  rw [SiemEvent.de] at h
  simp only [Option.bind_eq_bind, Option.bind_eq_some_iff] at h
  obtain ⟨⟨s, rest⟩, hi, h⟩ := h
  simp only [internal] at hi
  split at hi
  · rename_i s' hv
    cases hi
    rw [hv]
    exact congrArg (fun t => [Json.str t]) (payload_kind h).symm
  · cases hi

/-! What is read as a free document is in normal form. -/
theorem areMembers_insert {k : Str} {v : Json} (hv : IsValue v) :
    ∀ {m : OMap Str Json}, AreMembers m → AreMembers (OMap.insert m k v)
  | [], _ => ⟨hv, trivial⟩
  | (k', v') :: t, h => by
    have h : IsValue v' ∧ AreMembers t := h
    simp only [OMap.insert]
    split
    · exact ⟨hv, h.1, h.2⟩
    · exact ⟨hv, h.2⟩
    · exact ⟨h.1, areMembers_insert hv h.2⟩

theorem areMembers_ofList {l : List (Str × Json)} (h : AreMembers l) : AreMembers (OMap.ofList l) := by
  suffices ∀ m, AreMembers m → AreMembers (l.foldl (fun m e => OMap.insert m e.1 e.2) m) from this [] trivial
  induction l with
  | nil => exact fun m hm => hm
  | cons e t ih => exact fun m hm => ih h.2 _ (areMembers_insert h.1 hm)

mutual
theorem value_readValue (u : Ambient) : ∀ j v : Json, readValue u j = some v → IsValue v
  | .null, v, h => by cases h; trivial
  | .bool _, v, h => by cases h; trivial
  | .int i, v, h => by
    simp only [readValue] at h
    split at h
    · rename_i hi; cases h; exact hi
    · split at h
      · cases h; trivial
      · cases h
  | .float _, v, h => by cases h; trivial
  | .str _, v, h => by cases h; trivial
  | .arr l, v, h => by
    simp only [readValue, Option.map_eq_some_iff] at h
    obtain ⟨l', h, rfl⟩ := h
    exact values_readValues u l l' h
  | .obj kvs, v, h => by
    simp only [readValue, Option.map_eq_some_iff] at h
    obtain ⟨m, h, rfl⟩ := h
    exact ⟨OMap.sorted_ofList m, areMembers_ofList (members_readMembers u kvs m h)⟩
theorem values_readValues (u : Ambient) : ∀ l l' : List Json, readValues u l = some l' → AreValues l'
  | [], l', h => by cases h; trivial
  | j :: t, l', h => by
    simp only [readValues, Option.bind_eq_some_iff, Option.map_eq_some_iff] at h
    obtain ⟨v, hv, t', ht, rfl⟩ := h
    exact ⟨value_readValue u j v hv, values_readValues u t t' ht⟩
theorem members_readMembers (u : Ambient) : ∀ l l' : List (Str × Json), readMembers u l = some l' → AreMembers l'
  | [], l', h => by cases h; trivial
  | e :: t, l', h => by
    simp only [readMembers, Option.bind_eq_some_iff, Option.map_eq_some_iff] at h
    obtain ⟨v, hv, t', ht, rfl⟩ := h
    exact ⟨value_readValue u e.2 v hv, members_readMembers u t t' ht⟩
end

/-- C58. A free document is read in normal form, whatever was written: at every depth its members are in key order without
repetition and its integers have 64 bits. -/
theorem C58_free_document_normal (u : Ambient) (rnd32 : Rat → F64) (d v : Json) (h : SiemEvent.de u rnd32 d = some (.json v)) :
    IsValue v := by
  rw [SiemEvent.de] at h
  simp only [Option.bind_eq_bind, Option.bind_eq_some_iff] at h
  obtain ⟨⟨s, rest⟩, _, h⟩ := h
  obtain rfl : chars% "Json" = s := payload_kind h
  replace h := (payload_json _ _ _).symm.trans h
  obtain ⟨w, hw, e⟩ := Option.map_eq_some_iff.1 h
  cases e
  exact value_readValue u _ _ hw

/-- C58. If a key is repeated in a free document the last value counts. -/
theorem C58_free_document_repeated (u : Ambient) (rnd32 : Rat → F64) (kvs : List (Str × Json)) (hv : AreMembers kvs)
    (hn : chars% "event_type" ∉ kvs.map (·.1)) :
    ∃ m : List (Str × Json),
      SiemEvent.de u rnd32 (.obj ((chars% "event_type", .str (chars% "Json")) :: kvs)) = some (.json (.obj m)) ∧
      ∀ k, OMap.get? m k = (kvs.reverse.find? fun e => decide (e.1 = k)).map (·.2) := by
  refine ⟨OMap.ofList kvs, ?_, fun k => ?_⟩
  · rw [SiemEvent.de, internal_tag hn]
    show SiemEvent.dePayload u rnd32 (chars% "Json") (.obj kvs) = _
    refine (payload_json _ _ _).trans ?_
    simp only [readValue, readMembers_members u kvs hv, Option.map_some]
  · rw [OMap.get?_ofList]

/-- C58. Instead of an object the document may be an array that begins with the kind: a free document is then the rest of the
array, and the kinds without payload allow no rest. -/
theorem C58_array_form (u : Ambient) (rnd32 : Rat → F64) (l : List Json) :
    (AreValues l → SiemEvent.de u rnd32 (.arr (.str (chars% "Json") :: l)) = some (.json (.arr l))) ∧
    (∀ e : SiemEvent, e ∈ [.assessment, .sandbox, .antivirus, .dlp, .partitioned, .edr, .mail, .endpoint, .unknown, .artifacts] →
      SiemEvent.de u rnd32 (.arr (.str e.tagName :: l)) = if l = [] then some e else none) := by
  constructor
  · intro h
    show SiemEvent.dePayload u rnd32 (chars% "Json") (.arr l) = _
    refine (payload_json _ _ _).trans ?_
    simp only [readValue, readValues_values u l h, Option.map_some]
  · intro e he
    simp only [List.mem_cons, List.not_mem_nil, or_false] at he
    rcases he with rfl | rfl | rfl | rfl | rfl | rfl | rfl | rfl | rfl | rfl <;> cases l <;> rfl

example (u : Ambient) (rnd32 : Rat → F64) :
    SiemEvent.de u rnd32 (.obj [(chars% "event_type", .str (chars% "Json")), (chars% "b", .int 1), (chars% "a", .int 2),
      (chars% "b", .int 3)]) = some (.json (.obj [(chars% "a", .int 2), (chars% "b", .int 3)])) := rfl

theorem protocol_at : ∀ n < 142, (NetworkProtocol.all[n]?.map NetworkProtocol.ctorIdx) = some n := by decide +kernel

/-- C58. Inside an event the protocol may also be given by its position among the protocols, counted from 0 in the order of their
declaration; `OTHER` cannot. -/
theorem C58_protocol_by_number (n : Nat) (p : NetworkProtocol) :
    NetworkProtocol.deBuffered (.obj [(chars% "np_type", .int n)]) = some p ↔ p.ctorIdx = n ∧ Nameable p := by
  have hlt : ∀ p : NetworkProtocol, p.ctorIdx < 144 := fun p => by
    cases p with
    | OTHER t => exact (show (142 : Nat) < 144 by decide)
    | _ => exact Nat.lt_of_sub_pos (by decide)
  have hx : NetworkProtocol.deBuffered (.obj [(chars% "np_type", .int n)]) =
      (if n < 2 ^ 64 then some ((Sum.inr n : Str ⊕ Nat), Json.obj []) else none).bind fun x =>
        (unitRest x.2).bind fun _ => match x.1 with | .inl s => NetworkProtocol.ofName s | .inr n => NetworkProtocol.ofIndex n := rfl
  have hde : n < 2 ^ 64 → NetworkProtocol.deBuffered (.obj [(chars% "np_type", .int n)]) = NetworkProtocol.ofIndex n := by
    intro hn
    rw [hx, if_pos hn]; rfl
  have hbig : ¬ n < 2 ^ 64 → NetworkProtocol.deBuffered (.obj [(chars% "np_type", .int n)]) = none := by
    intro hn
    rw [hx, if_neg hn]; rfl
  constructor
  · intro h
    by_cases hn : n < 2 ^ 64
    · rw [hde hn] at h
      refine ⟨?_, fun t ht => (C58_protocol p).2.2 (.obj [(chars% "np_type", .int n)]) t |>.2 (by rw [hde hn, h, ht])⟩
      unfold NetworkProtocol.ofIndex at h
      split at h
      · rename_i hlt
        have := protocol_at n hlt
        rw [h] at this
        exact Option.some.inj this
      · split at h
        · cases h; rename_i hn; rw [hn]; rfl
        · cases h
    · rw [hbig hn] at h; cases h
  · rintro ⟨rfl, hp⟩
    rw [hde (Nat.lt_trans (hlt p) (by decide))]
    cases p with
    | OTHER t => exact absurd rfl (hp t)
    | _ => rfl

example : NetworkProtocol.deBuffered (.obj [(chars% "np_type", .int 6)]) = some .TCP :=
  (C58_protocol_by_number 6 .TCP).2 ⟨rfl, fun t h => by cases h⟩

/-- C58. The event a program gets without saying which is `Unknown`, which carries nothing. -/
theorem C58_default (dbg : Str → Str) : SiemEvent.default = .unknown ∧ SiemEvent.default.toLog dbg = .ret (SiemLog.new [] 0 []) :=
  ⟨rfl, rfl⟩

end USiem
