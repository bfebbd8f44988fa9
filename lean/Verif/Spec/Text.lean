import Verif.Rust.Prim
/- Specifications of textual number formats, independent of the parsers. -/
namespace USiem.Spec

/-- Two lists of the same length whose elements are related position by position. -/
inductive AllPairs {α β : Type} (R : α → β → Prop) : List α → List β → Prop where
  | nil : AllPairs R [] []
  | cons {a b l m} : R a b → AllPairs R l m → AllPairs R (a :: l) (b :: m)

/-- `t` is a non-empty run of ASCII decimal digits denoting `v`. -/
def Decimal (t : Str) (v : Nat) : Prop :=
  t ≠ [] ∧ (∀ c ∈ t, c.isDigit) ∧ Nat.ofDigitChars 10 t 0 = v

/-- As `Decimal`, but a single leading `+` is tolerated (what Rust's `str::parse` does). -/
def SignedDecimal (t : Str) (v : Nat) : Prop :=
  Decimal t v ∨ ∃ u, t = '+' :: u ∧ Decimal u v

/-- `groups` are the texts between the separators of `s`: joined by `sep` they give `s` and none contains `sep`. -/
def SeparatedBy (sep : Char) (groups : List Str) (s : Str) : Prop :=
  groups ≠ [] ∧ (∀ g ∈ groups, sep ∉ g) ∧ s = joinWith sep groups

/-- The number whose base-256 digits, most significant first, are `octets`. -/
def bigEndian256 (octets : List Nat) : Nat := octets.foldl (fun acc o => acc * 256 + o) 0

/-- The address `a.b.c.d`. -/
def addr (a b c d : Nat) : Nat := a * 2 ^ 24 + b * 2 ^ 16 + c * 2 ^ 8 + d

/-- Value of one ASCII hexadecimal digit byte. -/
def hexByte (b : Nat) : Option Nat :=
  if 48 ≤ b ∧ b ≤ 57 then some (b - 48)            -- '0'..'9'
  else if 97 ≤ b ∧ b ≤ 102 then some (b - 87)      -- 'a'..'f'
  else if 65 ≤ b ∧ b ≤ 70 then some (b - 55)       -- 'A'..'F'
  else none

/-- `g` is a group of one to four hexadecimal digits (ASCII bytes) denoting `v`. -/
def HexGroup (g : List Nat) (v : Nat) : Prop :=
  1 ≤ g.length ∧ g.length ≤ 4 ∧ (∀ b ∈ g, (hexByte b).isSome) ∧
    v = g.foldl (fun acc b => acc * 16 + (hexByte b).getD 0) 0

/-- The 128-bit number with these 16-bit groups, most significant first. -/
def bigEndian65536 (hs : List Nat) : Nat := hs.foldl (fun acc h => acc * 65536 + h) 0

/-- Byte value of ':'. -/
def colon : Nat := 58

/-- RFC 4291 text form 1: eight groups separated by colons. -/
def FullForm (b : List Nat) (v : Nat) : Prop :=
  ∃ gs hs, AllPairs HexGroup gs hs ∧ gs.length = 8 ∧ b = joinWith colon gs ∧ v = bigEndian65536 hs

/-- RFC 4291 text form 2: `left::right`, at most seven groups in all, `::` standing for the missing zero groups. -/
def CompressedForm (b : List Nat) (v : Nat) : Prop :=
  ∃ gl hl gr hr, AllPairs HexGroup gl hl ∧ AllPairs HexGroup gr hr ∧ gl.length + gr.length ≤ 7 ∧
    b = joinWith colon gl ++ [colon, colon] ++ joinWith colon gr ∧
    v = bigEndian65536 (hl ++ List.replicate (8 - gl.length - gr.length) 0 ++ hr)

/-- Text form 2 followed by a stray colon (not a valid address text): `left::right:` with a non-empty right. -/
def StrayColonForm (b : List Nat) (v : Nat) : Prop :=
  ∃ gl hl gr hr, AllPairs HexGroup gl hl ∧ AllPairs HexGroup gr hr ∧ gl.length + gr.length ≤ 7 ∧ gr ≠ [] ∧
    b = joinWith colon gl ++ [colon, colon] ++ joinWith colon gr ++ [colon] ∧
    v = bigEndian65536 (hl ++ List.replicate (8 - gl.length - gr.length) 0 ++ hr)

end USiem.Spec
