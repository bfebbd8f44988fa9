import Verif.Rust.Json
import Verif.Spec.Text
import Verif.Spec.Ieee
/- JSON texts: the grammar of RFC 8259 with what each text stands for, independently of the reader (C70). -/
namespace USiem.Spec

/-- White space. -/
def Blank (t : Str) : Prop := ∀ c ∈ t, c = ' ' ∨ c = '\n' ∨ c = '\t' ∨ c = '\r'

/-- Four hexadecimal digits, of either case, and their value. -/
def Hex4 (t : Str) (n : Nat) : Prop :=
  ∃ a b c d va vb vc vd : Nat, t.map Char.toNat = [a, b, c, d] ∧ hexByte a = some va ∧ hexByte b = some vb ∧ hexByte c = some vc ∧ hexByte d = some vd ∧
    n = va * 4096 + vb * 256 + vc * 16 + vd

/-- The letters that may follow a backslash, and the characters they stand for. -/
def shortEscapes : List (Char × Nat) := [('"', 34), ('\\', 92), ('/', 47), ('b', 8), ('f', 12), ('n', 10), ('r', 13), ('t', 9)]

/-- How a character may be written inside quotes. -/
inductive CharText : Str → Char → Prop where
  | plain (c : Char) : 32 ≤ c.toNat → c ≠ '"' → c ≠ '\\' → CharText [c] c
  | short (e c : Char) : (e, c.toNat) ∈ shortEscapes → CharText ['\\', e] c
  | unicode (t : Str) (c : Char) : Hex4 t c.toNat → CharText ('\\' :: 'u' :: t) c
  | pair (t u : Str) (hi lo : Nat) (c : Char) : Hex4 t hi → Hex4 u lo → 0xD800 ≤ hi → hi ≤ 0xDBFF → 0xDC00 ≤ lo → lo ≤ 0xDFFF →
      c.toNat = 0x10000 + (hi - 0xD800) * 1024 + (lo - 0xDC00) → CharText ('\\' :: 'u' :: (t ++ '\\' :: 'u' :: u)) c

/-- A text in quotes. -/
inductive Chars : Str → Str → Prop where
  | nil : Chars [] []
  | cons {t u s : Str} {c : Char} : CharText t c → Chars u s → Chars (t ++ u) (c :: s)
def QuotedText (t s : Str) : Prop := ∃ u, t = '"' :: (u ++ ['"']) ∧ Chars u s

/-- Digits without a leading zero (except for zero itself). -/
def Plain (t : Str) (n : Nat) : Prop := Decimal t n ∧ (t.head? = some '0' → t = ['0'])

/-- The text of an exponent. -/
def Exponent (t : Str) (e : Int) : Prop :=
  ∃ (x : Char) (u : Str) (n : Nat), (x = 'e' ∨ x = 'E') ∧ Decimal u n ∧
    ((t = x :: u ∨ t = x :: '+' :: u) ∧ e = n ∨ t = x :: '-' :: u ∧ e = -(n : Int))

/-- Numbers. What a number with decimals or an exponent is read as is given by `val` (sign, digits, decimals, exponent). -/
inductive Numeral (val : Bool → Str → Str → Int → Option Rat) : Str → Json → Prop where
  | int {t : Str} {n : Nat} : Plain t n → Numeral val t (.int n)
  | negative {t : Str} {n : Nat} : Plain t n → n ≠ 0 → Numeral val ('-' :: t) (.int (-(n : Int)))
  | minusZero {t : Str} : Plain t 0 → Numeral val ('-' :: t) (.float 0)
  | float {neg : Bool} {ti tf tp te : Str} {n : Nat} {e : Int} {q : Rat} :
      Plain ti n → (tf = [] ∧ tp = [] ∨ tp = '.' :: tf ∧ ∃ m, Decimal tf m) → (te = [] ∧ e = 0 ∨ Exponent te e) → tp ++ te ≠ [] →
      val neg ti tf e = some q → Numeral val ((if neg then ['-'] else []) ++ ti ++ tp ++ te) (.float q)

/-- A number with decimals or an exponent: `n · 10^k`, with a minus sign if `neg`. -/
def FloatText (t : Str) (neg : Bool) (n : Nat) (k : Int) : Prop :=
  ∃ (ti tf tp te : Str) (i : Nat) (e : Int), Plain ti i ∧ (tf = [] ∧ tp = [] ∨ tp = '.' :: tf ∧ ∃ m, Decimal tf m) ∧ (te = [] ∧ e = 0 ∨ Exponent te e) ∧
    tp ++ te ≠ [] ∧ Decimal (ti ++ tf) n ∧ k = e - tf.length ∧ t = (if neg then ['-'] else []) ++ ti ++ tp ++ te

/-- An element of an array: its text with the white space around it, and what it stands for. -/
structure Item where
  before : Str
  text : Str
  after : Str
  value : Json
/-- A member of an object. -/
structure Member extends Item where
  keyBefore : Str
  keyText : Str
  keyAfter : Str
  key : Str

def Item.written (i : Item) : Str := i.before ++ i.text ++ i.after
def Member.written (m : Member) : Str := m.keyBefore ++ m.keyText ++ m.keyAfter ++ ':' :: m.toItem.written

/-- `t` is the text of `j`, which has at most `d` levels of arrays and objects. -/
inductive ValueText (val : Bool → Str → Str → Int → Option Rat) : Nat → Str → Json → Prop where
  | null {d : Nat} : ValueText val d (chars% "null") .null
  | true {d : Nat} : ValueText val d (chars% "true") (.bool true)
  | false {d : Nat} : ValueText val d (chars% "false") (.bool false)
  | num {d : Nat} {t : Str} {j : Json} : Numeral val t j → ValueText val d t j
  | str {d : Nat} {t s : Str} : QuotedText t s → ValueText val d t (.str s)
  | emptyArr {d : Nat} {w : Str} : Blank w → ValueText val (d + 1) ('[' :: (w ++ [']'])) (.arr [])
  | arr {d : Nat} (items : List Item) : items ≠ [] → (∀ i ∈ items, Blank i.before ∧ Blank i.after) →
      (∀ i ∈ items, ValueText val d i.text i.value) →
      ValueText val (d + 1) ('[' :: (joinWith ',' (items.map Item.written) ++ [']'])) (.arr (items.map Item.value))
  | emptyObj {d : Nat} {w : Str} : Blank w → ValueText val (d + 1) ('{' :: (w ++ ['}'])) (.obj [])
  | obj {d : Nat} (ms : List Member) : ms ≠ [] → (∀ m ∈ ms, Blank m.before ∧ Blank m.after ∧ Blank m.keyBefore ∧ Blank m.keyAfter ∧ QuotedText m.keyText m.key) →
      (∀ m ∈ ms, ValueText val d m.text m.value) →
      ValueText val (d + 1) ('{' :: (joinWith ',' (ms.map Member.written) ++ ['}'])) (.obj (ms.map fun m => (m.key, m.value)))

/-- A document: a value and white space around it. At most 127 levels may be open. -/
def Document (val : Bool → Str → Str → Int → Option Rat) (t : Str) (j : Json) : Prop :=
  ∃ w u w', Blank w ∧ Blank w' ∧ t = w ++ u ++ w' ∧ ValueText val 127 u j

/-- The levels of arrays and objects in a tree. -/
inductive Levels : Nat → Json → Prop where
  | null {d : Nat} : Levels d .null
  | bool {d : Nat} {b : Bool} : Levels d (.bool b)
  | int {d : Nat} {i : Int} : Levels d (.int i)
  | float {d : Nat} {q : Rat} : Levels d (.float q)
  | str {d : Nat} {s : Str} : Levels d (.str s)
  | arr {d : Nat} {l : List Json} : (∀ j ∈ l, Levels d j) → Levels (d + 1) (.arr l)
  | obj {d : Nat} {kvs : List (Str × Json)} : (∀ e ∈ kvs, Levels d e.2) → Levels (d + 1) (.obj kvs)

/-- Every float in the tree satisfies `P`. -/
inductive Floats (P : Rat → Prop) : Json → Prop where
  | null : Floats P .null
  | bool {b : Bool} : Floats P (.bool b)
  | int {i : Int} : Floats P (.int i)
  | float {q : Rat} : P q → Floats P (.float q)
  | str {s : Str} : Floats P (.str s)
  | arr {l : List Json} : (∀ j ∈ l, Floats P j) → Floats P (.arr l)
  | obj {kvs : List (Str × Json)} : (∀ e ∈ kvs, Floats P e.2) → Floats P (.obj kvs)

mutual
/-- The tree with `f` applied to its floats. -/
def mapFloats (f : Rat → Rat) : Json → Json
  | .float q => .float (f q)
  | .arr l => .arr (mapFloatsItems f l)
  | .obj kvs => .obj (mapFloatsMembers f kvs)
  | j => j
def mapFloatsItems (f : Rat → Rat) : List Json → List Json
  | [] => []
  | j :: l => mapFloats f j :: mapFloatsItems f l
def mapFloatsMembers (f : Rat → Rat) : List (Str × Json) → List (Str × Json)
  | [] => []
  | (k, j) :: l => (k, mapFloats f j) :: mapFloatsMembers f l
end

/-- The double nearest to a decimal of at most 15 digits, the last one (other than zero) at a place from 10^-22 to 10^22, that is less
than 10^15 or at least 10^16. -/
def ShortDecimal (q : Rat) : Prop :=
  ∃ k i : Int, k.natAbs < 10 ^ 15 ∧ (k % 10 ≠ 0 ∨ k = 0) ∧ -22 ≤ i ∧ i ≤ 22 ∧
    ((k * (10 : Rat) ^ i).abs < 10 ^ 15 ∨ 10 ^ 16 ≤ (k * (10 : Rat) ^ i).abs) ∧ Ieee.round (k * (10 : Rat) ^ i) = .fin q

/-- `sh` gives, for a positive double, digits `m` and a place `j` such that `m · 10^j` is read back as the double, no decimal read back so has
its last digit further left, and of those with as many decimals none is nearer (what ryu computes; ties are left open). -/
def ShortestDigits (sh : Rat → Int × Int) : Prop :=
  ∀ q, Double q → 0 < q → Ieee.round ((sh q).1 * (10 : Rat) ^ (sh q).2) = .fin q ∧
    (∀ m j : Int, Ieee.round (m * (10 : Rat) ^ j) = .fin q → j ≤ (sh q).2) ∧
    ∀ m : Int, Ieee.round (m * (10 : Rat) ^ (sh q).2) = .fin q → ((sh q).1 * (10 : Rat) ^ (sh q).2 - q).abs ≤ (m * (10 : Rat) ^ (sh q).2 - q).abs

/-- A double that is zero or of ordinary magnitude. -/
def Ordinary (q : Rat) : Prop := q = 0 ∨ Double q ∧ (10 : Rat) ^ (-290 : Int) ≤ q.abs ∧ q.abs ≤ 10 ^ (308 : Int)

end USiem.Spec
