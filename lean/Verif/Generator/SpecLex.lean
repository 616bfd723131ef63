import Verif.Analysis.PropsIdent

/-
How PostgreSQL's scanner divides the text of a statement into tokens (manual, 4.1 Lexical Structure).
A specification, independent of /repo.

Simplifications: the blanks are space, tab, line feed, form feed and carriage return; letters are ASCII
letters and the underscore; a number is made of digits and points; comments, dollar quotes, and strings with
a letter in front of the quote (`E'...'`) are not described: they give the token `bad`. The rule that an
operator of several characters does not end in + or - is left out.
-/
namespace Verif.Generator.Lex
open Verif.Analysis

inductive Tok where
  /-- a key word or an identifier without quotes: upper-case letters count as lower-case letters -/
  | word (s : Bytes)
  /-- an identifier in quotes -/
  | name (s : Bytes)
  | str (s : Bytes)
  | num (s : Bytes)
  /-- `$n` -/
  | param (s : Bytes)
  | op (s : Bytes)
  | punct (c : Char)
  /-- `::` -/
  | cast
  | bad
deriving Repr, DecidableEq

def idStart (c : Char) : Bool := c.isAlpha || c = '_'
def wordChar (c : Char) : Bool := c.isAlpha || c.isDigit || c = '_'
def isBlank (c : Char) : Bool := c = ' ' || c = '\t' || c = '\n' || c = '\x0c' || c = '\r'
def isPunct (c : Char) : Bool := c = '(' || c = ')' || c = '[' || c = ']' || c = ',' || c = ';' || c = '.'
def isOp (c : Char) : Bool :=
  c = '+' || c = '-' || c = '*' || c = '/' || c = '<' || c = '>' || c = '=' || c = '~' || c = '!' || c = '@' ||
    c = '#' || c = '%' || c = '^' || c = '&' || c = '|' || c = '`' || c = '?'

/-- What has been read of the token that is being read. -/
inductive St where
  | idle
  | word (a : Bytes)
  | num (a : Bytes)
  | param (a : Bytes)
  | op (a : Bytes)
  | name (a : Bytes)
  /-- after a quote, which may be the first of two -/
  | nameEnd (a : Bytes)
  | str (a : Bytes)
  | strEnd (a : Bytes)
  | colon
deriving Repr, DecidableEq

/-- The first character of a token. -/
def start (c : Char) : List Tok × St :=
  if isBlank c then ([], .idle)
  else if idStart c then ([], .word [c])
  else if c.isDigit then ([], .num [c])
  else if c = '$' then ([], .param [])
  else if c = '"' then ([], .name [])
  else if c = '\'' then ([], .str [])
  else if c = ':' then ([], .colon)
  else if isPunct c then ([.punct c], .idle)
  else if isOp c then ([], .op [c])
  else ([.bad], .idle)

/-- The token that ends here. -/
def endTok : St → List Tok
  | .idle => []
  | .word a => [.word (lower a)]
  | .num a => [.num a]
  | .param a => [if a.length = 0 then .bad else .param a]
  | .op a => [.op a]
  | .name _ => [.bad]
  | .nameEnd a => [if a.length = 0 then .bad else .name a]
  | .str _ => [.bad]
  | .strEnd a => [.str a]
  | .colon => [.op b!":"]

/-- The token ends and another begins. -/
def next (st : St) (c : Char) : List Tok × St := (endTok st ++ (start c).1, (start c).2)

/-- Is this the second character of the beginning of a comment? -/
def isComment (a : Bytes) (c : Char) : Bool :=
  (a.getLast? = some '-' && c = '-') || (a.getLast? = some '/' && c = '*')

def step : St → Char → List Tok × St
  | .idle, c => start c
  | .word a, c =>
    if wordChar c || c = '$' then ([], .word (a ++ [c]))
    else if c = '\'' || c = '"' || c = '&' then ([.bad], (start c).2)
    else next (.word a) c
  | .num a, c =>
    if c.isDigit || c = '.' then ([], .num (a ++ [c]))
    else if idStart c then ([.bad], (start c).2)
    else next (.num a) c
  | .param a, c =>
    if c.isDigit then ([], .param (a ++ [c]))
    else if idStart c || c = '$' then ([.bad], (start c).2)
    else next (.param a) c
  | .op a, c =>
    if isComment a c then ([.bad], .idle)
    else if isOp c then ([], .op (a ++ [c]))
    else next (.op a) c
  | .name a, c => if c = '"' then ([], .nameEnd a) else ([], .name (a ++ [c]))
  | .nameEnd a, c => if c = '"' then ([], .name (a ++ [c])) else next (.nameEnd a) c
  | .str a, c => if c = '\'' then ([], .strEnd a) else ([], .str (a ++ [c]))
  | .strEnd a, c => if c = '\'' then ([], .str (a ++ [c])) else next (.strEnd a) c
  | .colon, c => if c = ':' then ([.cast], .idle) else next .colon c

def feed : St → Bytes → List Tok × St
  | st, [] => ([], st)
  | st, c :: cs =>
    let r := feed (step st c).2 cs
    ((step st c).1 ++ r.1, r.2)

/-- The tokens of a text. -/
def lex (s : Bytes) : List Tok := (feed .idle s).1 ++ endTok (feed .idle s).2

example : lex b!"SELECT u.\"id\", COUNT(*) FROM \"a\"\"b\" AS U WHERE x >= $12::int4[] AND y='it''s'" =
    [.word b!"select", .word b!"u", .punct '.', .name b!"id", .punct ',', .word b!"count", .punct '(', .op b!"*",
     .punct ')', .word b!"from", .name b!"a\"b", .word b!"as", .word b!"u", .word b!"where", .word b!"x",
     .op b!">=", .param b!"12", .cast, .word b!"int4", .punct '[', .punct ']', .word b!"and", .word b!"y",
     .op b!"=", .str b!"it's"] := by decide +kernel
example : lex b!"1 -- 2" = [.num b!"1", .bad, .num b!"2"] := by decide +kernel

/-! ### Texts that can be put one after the other -/

theorem feed_append (x y : Bytes) : ∀ st, feed st (x ++ y) =
    ((feed st x).1 ++ (feed (feed st x).2 y).1, (feed (feed st x).2 y).2) := by
  induction x with
  | nil => intro st; simp [feed]
  | cons c x ih => intro st; simp [feed, ih]

/-- Characters that end every token, and do not belong to it. -/
def isSep (c : Char) : Bool := isBlank c || c = '(' || c = ')' || c = '[' || c = ',' || c = ':'

/-- The text begins with a character that ends a token; or it is empty. -/
def SepHead : Bytes → Prop
  | [] => True
  | c :: _ => isSep c = true

instance : DecidablePred SepHead := fun s => by
  cases s <;> unfold SepHead <;> infer_instance

/-- The token may end here. -/
def open_ : St → Bool
  | .name _ | .str _ | .colon => false
  | .param a => a.length > 0
  | _ => true

/-- Nothing that is not described: what follows such a token is not described either. -/
def Clean (ts : List Tok) : Prop := ts.all (· ≠ .bad) = true

instance (ts) : Decidable (Clean ts) := by unfold Clean; infer_instance

theorem clean_iff {ts : List Tok} : Clean ts ↔ .bad ∉ ts := by
  simp only [Clean, List.all_eq_true, decide_eq_true_eq]
  exact ⟨fun h hb => h _ hb rfl, fun h x hx e => h (e ▸ hx)⟩

theorem clean_append {a b : List Tok} : Clean (a ++ b) ↔ Clean a ∧ Clean b := by simp [Clean]

/-- The text, put between characters that end a token, consists of these tokens. -/
def Reads (x : Bytes) (ts : List Tok) : Prop :=
  Clean ts ∧ ∃ us st, feed .idle x = (us, st) ∧ open_ st = true ∧ ts = us ++ endTok st

/-- The same, and the text may be followed by anything. -/
def Closed (x : Bytes) (ts : List Tok) : Prop := Clean ts ∧ feed .idle x = (ts, .idle)

/-- The text makes sense by itself. -/
def Whole (x : Bytes) : Prop := Clean (lex x) ∧ open_ (feed .idle x).2 = true

instance (x ts) : Decidable (Closed x ts) := by unfold Closed; infer_instance
instance (x) : Decidable (Whole x) := by unfold Whole; infer_instance

theorem Whole.reads {x : Bytes} (h : Whole x) : Reads x (lex x) := ⟨h.1, _, _, rfl, h.2, rfl⟩
theorem Reads.lex {x : Bytes} {ts : List Tok} (h : Reads x ts) : lex x = ts := by
  obtain ⟨_, us, st, h, _, rfl⟩ := h
  simp [Lex.lex, h]
theorem Reads.whole {x : Bytes} {ts : List Tok} (h : Reads x ts) : Whole x := by
  refine ⟨h.lex ▸ h.1, ?_⟩
  obtain ⟨_, us, st, h, h', rfl⟩ := h
  simp [h, h']
theorem Closed.reads {x : Bytes} {ts : List Tok} (h : Closed x ts) : Reads x ts :=
  ⟨h.1, ts, .idle, h.2, rfl, by simp [endTok]⟩
theorem Closed.nil : Closed [] [] := ⟨rfl, rfl⟩

theorem isSep_cases {c : Char} (h : isSep c = true) : c = ' ' ∨ c = '\t' ∨ c = '\n' ∨ c = '\x0c' ∨ c = '\r' ∨
    c = '(' ∨ c = ')' ∨ c = '[' ∨ c = ',' ∨ c = ':' := by
  simp only [isSep, isBlank, Bool.or_eq_true, decide_eq_true_eq] at h
  simp only [or_assoc] at h
  exact h

theorem step_sep {st : St} (h : open_ st = true) {c : Char} (hc : isSep c = true) :
    step st c = (endTok st ++ (start c).1, (start c).2) := by
  cases st with
  | name a => cases h
  | str a => cases h
  | colon => cases h
  | idle => rfl
  | word a => rcases isSep_cases hc with h | h | h | h | h | h | h | h | h | h <;> subst h <;> rfl
  | num a => rcases isSep_cases hc with h | h | h | h | h | h | h | h | h | h <;> subst h <;> rfl
  | param a => rcases isSep_cases hc with h | h | h | h | h | h | h | h | h | h <;> subst h <;> rfl
  | op a =>
    have : isComment a c = false := by
      rcases isSep_cases hc with h | h | h | h | h | h | h | h | h | h <;> subst h <;> simp [isComment]
    simp only [step, this]
    rcases isSep_cases hc with h | h | h | h | h | h | h | h | h | h <;> subst h <;> rfl
  | nameEnd a => rcases isSep_cases hc with h | h | h | h | h | h | h | h | h | h <;> subst h <;> rfl
  | strEnd a => rcases isSep_cases hc with h | h | h | h | h | h | h | h | h | h <;> subst h <;> rfl

theorem feed_sep {st : St} (h : open_ st = true) {y : Bytes} (hy : SepHead y) :
    open_ (feed st y).2 = open_ (feed .idle y).2 ∧
      (feed st y).1 ++ endTok (feed st y).2 = endTok st ++ ((feed .idle y).1 ++ endTok (feed .idle y).2) := by
  cases y with
  | nil => exact ⟨by rw [feed, feed, h]; rfl, by simp [feed, endTok]⟩
  | cons c cs =>
    simp only [feed, step_sep h hy]
    refine ⟨rfl, ?_⟩
    simp [step]

theorem feed_sep_closed {st : St} (h : open_ st = true) {y : Bytes} (hy : SepHead y) (hne : y ≠ []) :
    feed st y = (endTok st ++ (feed .idle y).1, (feed .idle y).2) := by
  cases y with
  | nil => exact absurd rfl hne
  | cons c cs => simp only [feed, step_sep h hy]; simp [step]

theorem Closed.append {x y : Bytes} {a b : List Tok} (hx : Closed x a) (hy : Closed y b) :
    Closed (x ++ y) (a ++ b) := by
  refine ⟨clean_append.2 ⟨hx.1, hy.1⟩, ?_⟩
  rw [feed_append, hx.2]
  simp [hy.2]

theorem Closed.append_reads {x y : Bytes} {a b : List Tok} (hx : Closed x a) (hy : Reads y b) :
    Reads (x ++ y) (a ++ b) := by
  refine ⟨clean_append.2 ⟨hx.1, hy.1⟩, ?_⟩
  obtain ⟨_, us, st, h, ho, rfl⟩ := hy
  refine ⟨a ++ us, st, ?_, ho, by simp⟩
  rw [feed_append, hx.2]
  simp [h]

theorem Reads.append {x y : Bytes} {a b : List Tok} (hx : Reads x a) (hs : SepHead y) (hy : Reads y b) :
    Reads (x ++ y) (a ++ b) := by
  refine ⟨clean_append.2 ⟨hx.1, hy.1⟩, ?_⟩
  obtain ⟨_, us, st, h, ho, rfl⟩ := hx
  obtain ⟨_, vs, st', h', ho', rfl⟩ := hy
  have := feed_sep ho hs
  rw [h'] at this
  refine ⟨us ++ (feed st y).1, (feed st y).2, ?_, ?_, ?_⟩
  · rw [feed_append, h]
  · rw [this.1]; exact ho'
  · rw [List.append_assoc, List.append_assoc, this.2]

theorem Reads.append_closed {x y : Bytes} {a b : List Tok} (hx : Reads x a) (hs : SepHead y) (hne : y ≠ [])
    (hy : Closed y b) : Closed (x ++ y) (a ++ b) := by
  refine ⟨clean_append.2 ⟨hx.1, hy.1⟩, ?_⟩
  obtain ⟨_, us, st, h, ho, rfl⟩ := hx
  rw [feed_append, h, feed_sep_closed ho hs hne, hy.2]
  simp

theorem SepHead.append {x y : Bytes} (h : SepHead x) (hne : x ≠ []) : SepHead (x ++ y) := by
  cases x with
  | nil => exact absurd rfl hne
  | cons c cs => exact h

/-! ### Identifiers and numbers -/

theorem isBlank_not {c : Char} (h : wordChar c = true ∨ idStart c = true) : isBlank c = false := by
  by_cases hb : isBlank c = true
  · simp only [isBlank, Bool.or_eq_true, decide_eq_true_eq] at hb
    simp only [or_assoc] at hb
    rcases hb with hb | hb | hb | hb | hb <;> subst hb <;> revert h <;> decide
  · simpa using hb

theorem start_word {c : Char} (h : idStart c = true) : start c = ([], .word [c]) := by
  simp [start, h, isBlank_not (.inr h)]

theorem feed_word : ∀ (cs a : Bytes), (∀ c ∈ cs, wordChar c = true) → feed (.word a) cs = ([], .word (a ++ cs))
  | [], a, _ => by simp [feed]
  | c :: cs, a, h => by
    have hc := h c (List.mem_cons_self ..)
    simp only [feed, step, hc, Bool.true_or, if_true]
    rw [feed_word cs _ (fun d hd => h d (List.mem_cons_of_mem _ hd))]
    simp

theorem feed_ident {s : Bytes} (h : Ident s) : feed .idle s = ([], .word s) := by
  obtain ⟨c, cs, rfl, hc, hcs⟩ := h
  have hc : idStart c = true := by simpa [idStart] using hc
  simp only [feed, step, start_word hc]
  rw [feed_word cs _ (fun d hd => by simpa [wordChar, or_assoc] using hcs d hd)]
  simp

theorem reads_ident {s : Bytes} (h : Ident s) : Reads s [.word (lower s)] :=
  ⟨rfl, [], .word s, feed_ident h, rfl, rfl⟩

theorem closed_qualifier {s : Bytes} (h : Ident s) : Closed (s ++ b!".") [.word (lower s), .punct '.'] := by
  refine ⟨rfl, ?_⟩
  rw [feed_append, feed_ident h]
  rfl

theorem feed_name : ∀ (cs a : Bytes), '"' ∉ cs → feed (.name a) cs = ([], .name (a ++ cs))
  | [], a, _ => by simp [feed]
  | c :: cs, a, h => by
    simp only [List.mem_cons, not_or] at h
    have hc : c ≠ '"' := fun e => h.1 e.symm
    simp only [feed, step, hc, if_false]
    rw [feed_name cs _ h.2]
    simp

theorem reads_quoted {s : Bytes} (hs : s ≠ []) (h : '"' ∉ s) : Reads (b!"\"" ++ (s ++ b!"\"")) [.name s] := by
  refine ⟨rfl, [], .nameEnd s, ?_, rfl, ?_⟩
  · rw [feed_append]
    have : feed .idle b!"\"" = ([], .name []) := rfl
    rw [this, feed_append, feed_name s [] h]
    rfl
  · cases s with
    | nil => exact absurd rfl hs
    | cons c cs => simp [endTok]

theorem reads_quoted_ident {s : Bytes} (h : Ident s) : Reads (b!"\"" ++ (s ++ b!"\"")) [.name s] :=
  reads_quoted h.ne_nil (h.not_mem '"' (by decide))

theorem feed_num : ∀ (cs a : Bytes), (∀ c ∈ cs, c.isDigit = true) → feed (.num a) cs = ([], .num (a ++ cs))
  | [], a, _ => by simp [feed]
  | c :: cs, a, h => by
    have hc := h c (List.mem_cons_self ..)
    simp only [feed, step, hc, Bool.true_or, if_true]
    rw [feed_num cs _ (fun d hd => h d (List.mem_cons_of_mem _ hd))]
    simp

theorem feed_param : ∀ (cs a : Bytes), (∀ c ∈ cs, c.isDigit = true) → feed (.param a) cs = ([], .param (a ++ cs))
  | [], a, _ => by simp [feed]
  | c :: cs, a, h => by
    have hc := h c (List.mem_cons_self ..)
    simp only [feed, step, hc, if_true]
    rw [feed_param cs _ (fun d hd => h d (List.mem_cons_of_mem _ hd))]
    simp

theorem start_digit {c : Char} (h : c.isDigit = true) : start c = ([], .num [c]) := by
  have hb : isBlank c = false := isBlank_not (.inl (by simp [wordChar, h]))
  have hi : idStart c = false := by
    by_cases hi : idStart c = true
    · simp only [idStart, Char.isAlpha, Char.isUpper, Char.isLower, Char.isDigit, Bool.and_eq_true,
        Bool.or_eq_true, decide_eq_true_eq, UInt32.le_iff_toNat_le, ge_iff_le] at h hi
      rcases hi with (hi | hi) | hi
      · revert h hi; simp; omega
      · revert h hi; simp; omega
      · subst hi; revert h; decide
    · simpa using hi
  simp [start, h, hb, hi]

theorem reads_itoa (n : Nat) : Reads (itoa n) [.num (itoa n)] := by
  refine ⟨rfl, [], .num (itoa n), ?_, rfl, rfl⟩
  have h : ∀ c ∈ itoa n, c.isDigit = true := fun c hc => isDigit_of_mem_itoa hc
  cases e : itoa n with
  | nil => exact absurd e (itoa_ne_nil n)
  | cons c cs =>
    rw [e] at h
    simp only [feed, step, start_digit (h c (List.mem_cons_self ..))]
    rw [feed_num cs _ (fun d hd => h d (List.mem_cons_of_mem _ hd))]
    simp

theorem reads_ordinal (n : Nat) : Reads ('$' :: itoa n) [.param (itoa n)] := by
  refine ⟨rfl, [], .param (itoa n), ?_, ?_, ?_⟩
  · have : feed .idle ('$' :: itoa n) = feed (.param []) (itoa n) := by simp [feed, step, start, isBlank, idStart]
    rw [this, feed_param _ _ (fun c hc => isDigit_of_mem_itoa hc)]
    simp
  · cases e : itoa n with
    | nil => exact absurd e (itoa_ne_nil n)
    | cons c cs => simp [open_]
  · cases e : itoa n with
    | nil => exact absurd e (itoa_ne_nil n)
    | cons c cs => simp [endTok]

end Verif.Generator.Lex
