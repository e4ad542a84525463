/-
Python runtime layer, part 9: the texts of regular expressions.

`Pat.parse` reads the text of a pattern as `re.compile` does, for the syntax that /repo/epcpy uses: characters, `\d`, escaped punctuation, `.`,
sets with ranges, groups, `|`, `*`, `+`, `?`, `{n}`, `{m,n}` and `{,n}`.  Everything else (anchors, back-references, look-around, special groups,
lazy and repeated quantifiers, negated sets, other escapes) is refused.  `Pat.toRe` is the meaning of a pattern.
-/
import Verif.Py.ReSplit

namespace Epc

/-- An item of a set of characters. -/
inductive Item where
  | one (c : Char)
  | range (a b : Char)
  /-- `\d` -/
  | digit
  /-- `.` -/
  | any
  deriving DecidableEq

/-- Is the character described by the item? -/
def Item.has (c : Char) : Item → Bool
  | .one a => c == a
  | .range a b => decide (a ≤ c) && decide (c ≤ b)
  | .digit => isDecimal c
  | .any => anyChar c

inductive Pat where
  | none
  | eps
  | cls (items : List Item)
  | seq (a b : Pat)
  | alt (a b : Pat)
  | star (a : Pat)

namespace Pat

/-! ### Reading -/

inductive Tok where
  | open_
  | close
  | bar
  | set (items : List Item)
  | star
  | plus
  | opt
  | rep (m n : Nat)

/-- Characters that may be escaped to stand for themselves. -/
def isPunct (c : Char) : Bool := ".*()/-#".toList.contains c

/-- Where in the pattern the reader is. -/
inductive Mode where
  | text
  /-- after a backslash -/
  | esc
  /-- in a set: the items so far, and the last character if it may still begin a range -/
  | set (items : List Item) (last : Option Char)
  /-- in a set after `c-` -/
  | range (items : List Item) (c : Char)
  /-- in a set after a backslash -/
  | setEsc (items : List Item)
  /-- in `{m` -/
  | from_ (m : Option Nat)
  /-- in `{m,n` -/
  | to (m : Nat) (n : Option Nat)

/-- A decimal digit read after a number. -/
def digitAfter (n : Option Nat) (c : Char) : Nat := 10 * n.getD 0 + (c.toNat - 48)

/-- The items of a set with the character that did not begin a range. -/
def closeItem (items : List Item) : Option Char → List Item
  | some c => items ++ [.one c]
  | .none => items

/-- The tokens of a pattern. -/
def lex : Mode → Str → Option (List Tok)
  | .text, [] => some []
  | _, [] => .none
  | .text, c :: s =>
    if c = '(' then (lex .text s).map (Tok.open_ :: ·)
    else if c = ')' then (lex .text s).map (Tok.close :: ·)
    else if c = '|' then (lex .text s).map (Tok.bar :: ·)
    else if c = '*' then (lex .text s).map (Tok.star :: ·)
    else if c = '+' then (lex .text s).map (Tok.plus :: ·)
    else if c = '?' then (lex .text s).map (Tok.opt :: ·)
    else if c = '.' then (lex .text s).map (Tok.set [.any] :: ·)
    else if c = '\\' then lex .esc s
    else if c = '[' then lex (.set [] .none) s
    else if c = '{' then lex (.from_ .none) s
    else if c = '^' ∨ c = '$' ∨ c = ']' ∨ c = '}' then .none
    else (lex .text s).map (Tok.set [.one c] :: ·)
  | .esc, c :: s =>
    if c = 'd' then (lex .text s).map (Tok.set [.digit] :: ·)
    else if isPunct c then (lex .text s).map (Tok.set [.one c] :: ·)
    else .none
  | .set items last, c :: s =>
    if c = ']' then
      if items.isEmpty && last.isNone then .none else (lex .text s).map (Tok.set (closeItem items last) :: ·)
    else if c = '\\' then lex (.setEsc (closeItem items last)) s
    else if c = '^' ∧ items.isEmpty ∧ last.isNone then .none
    else match last with
      | some a => if c = '-' then lex (.range items a) s else lex (.set (items ++ [.one a]) (some c)) s
      | .none => lex (.set items (some c)) s
  | .range items a, c :: s =>
    if c = ']' then (lex .text s).map (Tok.set (items ++ [.one a, .one '-']) :: ·)
    else if c = '\\' ∨ c < a then .none
    else lex (.set (items ++ [.range a c]) .none) s
  | .setEsc items, c :: s =>
    if isPunct c then lex (.set items (some c)) s else .none
  | .from_ m, c :: s =>
    if isDigitA c then lex (.from_ (some (digitAfter m c))) s
    else if c = ',' then lex (.to (m.getD 0) .none) s
    else if c = '}' then
      match m with
      | some m => (lex .text s).map (Tok.rep m m :: ·)
      | .none => .none
    else .none
  | .to m n, c :: s =>
    if isDigitA c then lex (.to m (some (digitAfter n c))) s
    else if c = '}' then
      match n with
      | some n => if m ≤ n then (lex .text s).map (Tok.rep m n :: ·) else .none
      | .none => .none
    else .none

/-! `r*`, `r+`, `r?`, `r{m,n}`, sequences and alternatives, as in Py/Regex. -/

def plus (r : Pat) : Pat := .seq r (.star r)
def opt (r : Pat) : Pat := .alt .eps r
def rep (r : Pat) : Nat → Pat
  | 0 => .eps
  | n + 1 => .seq r (rep r n)
def upto (r : Pat) : Nat → Pat
  | 0 => .eps
  | n + 1 => opt (.seq r (upto r n))
def range (r : Pat) (m n : Nat) : Pat := .seq (rep r m) (upto r (n - m))
def seqs : List Pat → Pat
  | [] => .eps
  | [r] => r
  | r :: rs => .seq r (seqs rs)
def alts : List Pat → Pat
  | [] => .none
  | [r] => r
  | r :: rs => .alt r (alts rs)

/-- A group that is being read: the alternatives before the current one and the parts of the current one, both backwards; the last part
may get a quantifier if it has none. -/
structure Frame where
  before : List Pat
  parts : List Pat
  bare : Bool

namespace Frame

def empty : Frame := ⟨[], [], false⟩
def push (p : Pat) (f : Frame) : Frame := ⟨f.before, p :: f.parts, true⟩
def bar (f : Frame) : Frame := ⟨Pat.seqs f.parts.reverse :: f.before, [], false⟩
/-- The pattern of the group. -/
def done (f : Frame) : Pat := Pat.alts (Pat.seqs f.parts.reverse :: f.before).reverse
/-- Apply a quantifier to the last part. -/
def quantify (q : Pat → Pat) (f : Frame) : Option Frame :=
  match f.bare, f.parts with
  | true, p :: ps => some ⟨f.before, q p :: ps, false⟩
  | _, _ => .none

end Frame

/-- The pattern of a list of tokens: the current group, and the groups around it. -/
def parseToks : List Tok → Frame → List Frame → Option Pat
  | [], f, [] => some f.done
  | [], _, _ :: _ => .none
  | .open_ :: t, f, fs => parseToks t .empty (f :: fs)
  | .close :: t, f, g :: fs => parseToks t (g.push f.done) fs
  | .close :: _, _, [] => .none
  | .bar :: t, f, fs => parseToks t f.bar fs
  | .set k :: t, f, fs => parseToks t (f.push (.cls k)) fs
  | .star :: t, f, fs =>
    match f.quantify Pat.star with
    | some f => parseToks t f fs
    | .none => .none
  | .plus :: t, f, fs =>
    match f.quantify plus with
    | some f => parseToks t f fs
    | .none => .none
  | .opt :: t, f, fs =>
    match f.quantify opt with
    | some f => parseToks t f fs
    | .none => .none
  | .rep m n :: t, f, fs =>
    match f.quantify (fun p => range p m n) with
    | some f => parseToks t f fs
    | .none => .none

/-- The pattern of a text. -/
def parse (s : Str) : Option Pat :=
  match lex .text s with
  | some l => parseToks l .empty []
  | .none => .none

/-! ### Meaning -/

def toRe : Pat → Re
  | .none => .none
  | .eps => .eps
  | .cls items => .cls (fun c => items.any (Item.has c))
  | .seq a b => .seq a.toRe b.toRe
  | .alt a b => .alt a.toRe b.toRe
  | .star a => .star a.toRe

/-- The pattern matches no empty text. -/
def nonEmpty : Pat → Bool
  | .none => true
  | .eps => false
  | .cls _ => true
  | .seq a b => a.nonEmpty || b.nonEmpty
  | .alt a b => a.nonEmpty && b.nonEmpty
  | .star _ => false

/-- The pattern has no quantifier with a choice. -/
def plain : Pat → Bool
  | .none => true
  | .eps => true
  | .cls _ => true
  | .seq a b => a.plain && b.plain
  | .alt a b => a.plain && b.plain && a.nonEmpty && b.nonEmpty
  | .star _ => false

/-- The lengths of the matches of a plain pattern at the beginning of a text, in the order in which they are tried. -/
def lens : Pat → Str → List Nat
  | .none, _ => []
  | .eps, _ => [0]
  | .cls _, [] => []
  | .cls items, c :: _ => if items.any (Item.has c) then [1] else []
  | .seq a b, s => (a.lens s).flatMap (fun n => (b.lens (s.drop n)).map (n + ·))
  | .alt a b, s => a.lens s ++ b.lens s
  | .star _, _ => []

/-- The length of the match at the beginning of a text. -/
def firstLen (p : Pat) (s : Str) : Option Nat := (p.lens s).head?

/-- How many groups the pattern has. -/
def groups : List Tok → Nat
  | [] => 0
  | .open_ :: t => groups t + 1
  | _ :: t => groups t

/-- Does the pattern begin with a group and end with one? -/
def wrapped (l : List Tok) : Bool :=
  match l.head?, l.getLast? with
  | some .open_, some .close => true
  | _, _ => false

end Pat

/-- `re.compile(text)` -/
def compile (text : Str) : Option Re := (Pat.parse text).map Pat.toRe

/-- `re.split(text, s)`, for plain patterns that have no group or are one group. -/
def splitBy (text : Str) (s : Str) : Option (List Str) :=
  match Pat.lex .text text with
  | some l =>
    match Pat.parseToks l .empty [] with
    | some p =>
      if p.plain && p.nonEmpty then
        if Pat.groups l = 0 then some (splitNoCap p.firstLen s)
        else if Pat.groups l = 1 && Pat.wrapped l then some (splitCap p.firstLen s)
        else .none
      else .none
    | .none => .none
  | .none => .none

/-- `re.findall(text, s)`, for plain patterns that have no group or are one group. -/
def findAllBy (text : Str) (s : Str) : Option (List Str) :=
  match Pat.lex .text text with
  | some l =>
    match Pat.parseToks l .empty [] with
    | some p =>
      if p.plain && p.nonEmpty && (Pat.groups l = 0 || (Pat.groups l = 1 && Pat.wrapped l)) then some (findAll p.firstLen s) else .none
    | .none => .none
  | .none => .none

/-- Does a pattern contain `|`? -/
def Pat.choice (l : List Tok) : Bool := l.any fun | .bar => true | _ => false

/-- `$` matches at the end of a text and before a newline at its end. -/
def atEnd (s : Str) : Bool := s == [] || s == ['\n']

/-- The length of the match of `p$` at the beginning of a text. -/
def Pat.lastLen (p : Pat) (s : Str) : Option Nat := (p.lens s).find? fun n => atEnd (s.drop n)

/-- Replace the first match. -/
def subOnce (m : Str → Option Nat) (r : Str) : Str → Str
  | [] => []
  | c :: s =>
    match m (c :: s) with
    | some n => r ++ (c :: s).drop n
    | .none => c :: subOnce m r s

/-- `re.sub(text, r, s, 1)`, for a plain pattern without `|` that ends with `$`, and a replacement without backslashes. -/
def subBy (text r s : Str) : Option Str :=
  match text.reverse with
  | '$' :: t =>
    match Pat.lex .text t.reverse with
    | some l =>
      match Pat.parseToks l .empty [] with
      | some p => if p.plain && p.nonEmpty && !Pat.choice l && !r.contains '\\' then some (subOnce p.lastLen r s) else .none
      | .none => .none
    | .none => .none
  | _ => .none

end Epc
