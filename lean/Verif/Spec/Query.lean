import Verif.Model.Query
/- Vocabulary for the query lexer: what is left to read, and one step of reading, on plain texts. -/
namespace USiem.Spec

/-- What a backslash followed by `c` stands for. `keep`: inside double quotes an escaped star keeps its backslash. -/
def escaped (keep : Bool) (c : Char) : Str :=
  match c with
  | 'n' => ['\n']
  | 't' => ['\t']
  | 'r' => ['\r']
  | '0' => ['\x00']
  | '*' => if keep then ['\\', '*'] else ['*']
  | c => [c]

/-- `Quoted q keep esc s d t`: reading the inside of a quoted text from `s` gives the content `d` and leaves `t`, which is the
closing quote and what follows it, or nothing when the quote is not closed. `esc`: a backslash was just read. -/
inductive Quoted (q : Char) (keep : Bool) : Bool → Str → Str → Str → Prop
  | close (r : Str) : Quoted q keep false (q :: r) [] (q :: r)
  | unclosed (esc : Bool) : Quoted q keep esc [] [] []
  | backslash (s d t : Str) : Quoted q keep true s d t → Quoted q keep false ('\\' :: s) d t
  | backslash2 (s d t : Str) : Quoted q keep false s d t → Quoted q keep true ('\\' :: s) ('\\' :: d) t
  | plain (c : Char) (s d t : Str) : c ≠ q → c ≠ '\\' → Quoted q keep false s d t → Quoted q keep false (c :: s) (c :: d) t
  | escape (c : Char) (s d t : Str) : c ≠ '\\' → Quoted q keep false s d t → Quoted q keep true (c :: s) (escaped keep c ++ d) t

/-- The one-character tokens. -/
def symbols : List (Char × QueryToken) :=
  [('=', .assign), ('|', .pipe), ('+', .plus '+'), ('-', .minus '-'), ('!', .bang '!'), ('/', .slash '/'),
   ('*', .asterisk '*'), ('<', .lt '<'), ('>', .gt '>'), (';', .semicolon ';'), ('(', .lparen '('), (')', .rparen ')'),
   (',', .comma ','), ('{', .lbrace '{'), ('}', .rbrace '}')]

/-- The keywords; every other word is a function name or a field. -/
def keywords : List (Str × QueryToken) :=
  [(chars% "true", .true_), (chars% "false", .false_), (chars% "AND", .and_), (chars% "OR", .or_), (chars% "NOT", .not_),
   (chars% "filter", .filter), (chars% "fields", .fields), (chars% "as", .as_)]
def functionNames : List Str :=
  [chars% "to_number", chars% "to_string", chars% "lowercase", chars% "uppercase", chars% "replace", chars% "len",
   chars% "floor", chars% "trim", chars% "to_integer", chars% "to_float"]

def isBlank (c : Char) : Prop := c = ' ' ∨ c = '\t' ∨ c = '\n' ∨ c = '\r'
def isWordStart (c : Char) : Prop := ('a' ≤ c ∧ c ≤ 'z') ∨ ('A' ≤ c ∧ c ≤ 'Z') ∨ c = '_' ∨ c = '.'
def isDigit (c : Char) : Prop := '0' ≤ c ∧ c ≤ '9'

/-- The token of a word. -/
inductive WordToken : Str → QueryToken → Prop
  | keyword (w : Str) (t : QueryToken) : (w, t) ∈ keywords → WordToken w t
  | function (w : Str) : w ∈ functionNames → WordToken w (.function w)
  | field (w : Str) : (∀ t, (w, t) ∉ keywords) → w ∉ functionNames → WordToken w (.field w)

/-- The number of stars not just after a backslash; `prev` is the character before. -/
def stars (prev : Char) : Str → Nat
  | [] => 0
  | c :: s => (if c = '*' ∧ prev ≠ '\\' then 1 else 0) + stars c s

/-- The text without its stars. -/
def noStars (s : Str) : Str := s.filter (fun c => c != '*')

/-- The token of a double-quoted content `d`. The names are the ones of the code: a star in front gives `StartsWith`. -/
inductive ContentToken : Str → QueryToken → Prop
  | short (d : Str) : d.length ≤ 1 → ContentToken d (.string d)
  | many (d : Str) : 2 ≤ d.length → 2 < stars ' ' d → ContentToken d (.like d)
  | both (m : Str) : stars ' ' ('*' :: m ++ ['*']) ≤ 2 → ContentToken ('*' :: m ++ ['*']) (.contains (noStars m))
  | front (m : Str) : m ≠ [] → m.getLast? ≠ some '*' → stars ' ' ('*' :: m) ≤ 2 → ContentToken ('*' :: m) (.startsWith (noStars m))
  | back (m : Str) : m ≠ [] → m.head? ≠ some '*' → stars ' ' (m ++ ['*']) ≤ 2 → ContentToken (m ++ ['*']) (.endsWith (noStars m))
  | plain (d : Str) : 2 ≤ d.length → d.head? ≠ some '*' → d.getLast? ≠ some '*' → stars ' ' d = 0 → ContentToken d (.string d)
  | inner (d : Str) : 2 ≤ d.length → d.head? ≠ some '*' → d.getLast? ≠ some '*' → 1 ≤ stars ' ' d → stars ' ' d ≤ 2 →
      ContentToken d (.like d)

/-- One step: with `s` left to read, the token and what is left after it. -/
inductive LexStep : Str → QueryToken → Str → Prop
  | blank (c : Char) (s : Str) (t : QueryToken) (r : Str) : isBlank c → LexStep s t r → LexStep (c :: s) t r
  | atEnd : LexStep [] .eof []
  | zero (s : Str) : LexStep ('0' :: s) .eof s
  | symbol (c : Char) (t : QueryToken) (s : Str) : (c, t) ∈ symbols → LexStep (c :: s) t s
  | single (s d t : Str) : Quoted '\'' false false s d t → LexStep ('\'' :: s) (.string d) t.tail
  | double (s d t : Str) (tok : QueryToken) : Quoted '"' true false s d t → ContentToken d tok → LexStep ('"' :: s) tok t.tail
  | word (c : Char) (w r : Str) (t : QueryToken) : isWordStart c → (∀ x ∈ w, isWordStart x ∨ isDigit x) →
      (∀ x, r.head? = some x → ¬ (isWordStart x ∨ isDigit x)) → WordToken (c :: w) t → LexStep (c :: w ++ r) t r
  | number (c : Char) (w r : Str) : isDigit c → c ≠ '0' → (∀ x ∈ w, isDigit x) → (∀ x, r.head? = some x → ¬ isDigit x) →
      LexStep (c :: w ++ r) (.int (c :: w)) r
  | illegal (c : Char) (s : Str) : ¬ isBlank c → (∀ t, (c, t) ∉ symbols) → c ≠ '\'' → c ≠ '"' → ¬ isWordStart c → ¬ isDigit c →
      LexStep (c :: s) .illegal (c :: s)

/-- `Left l s`: the text `s` is what the lexer has still to read. -/
structure Left (l : QueryLexer) (s : Str) : Prop where
  input : ∃ pre, l.input = pre ++ s ∧ (s ≠ [] → l.position = pre.length) ∧ pre.length ≤ l.position
  rpos : l.readPosition = l.position + 1
  ch : l.ch = s.headD '0'

end USiem.Spec
