#!/usr/bin/env python3
"""Compares the model's Python runtime layer (lean/Verif/Py) with the CPython that runs this script, on random arguments.

Only built-ins of the language are called here (`int`, `re`, `base64`, `format`, slices, ...), never code of the library under study.
The script writes the cases with CPython's results to /tmp/runtime_cases.txt, and runs a Lean program that evaluates the model's functions on
them and reports every disagreement.

usage: runtime_check.py [number of random cases per operation] [seed]
"""
import base64, binascii, os, warnings, random, re, subprocess, sys, unicodedata

warnings.simplefilter('ignore')
HERE = os.path.dirname(os.path.abspath(__file__))
LEAN = os.path.join(HERE, '..', 'lean')
N = int(sys.argv[1]) if len(sys.argv) > 1 else 2000
rnd = random.Random(int(sys.argv[2]) if len(sys.argv) > 2 else 0)

def enc(s): return '.'.join(str(ord(c)) for c in s)
def enci(i): return str(i)
def err(e):
    for t, n in ((KeyError, 'key'), (IndexError, 'index'), (OverflowError, 'overflow'), (TypeError, 'type'), (ValueError, 'value')):
        if isinstance(e, t): return 'E' + n
    raise e
def run(f, show):
    try: return 'O' + show(f())
    except Exception as e: return err(e)
strs = lambda l: ','.join('<' + enc(x) + '>' for x in l)
byts = lambda b: '.'.join(str(x) for x in b)

DIG = [chr(z + d) for z in (0x660, 0x966, 0xff10, 0x1d7ce, 0x1fbf0) for d in (0, 1, 7, 9)]
SPC = [' ', '\t', '\n', '\x0b', '\x0c', '\r', '\x1c', '\x1f', '\x85', '\xa0', ' ', '　', '​', '\x00', '\x7f']
def text(alpha, lo=0, hi=12): return ''.join(rnd.choice(alpha) for _ in range(rnd.randint(lo, hi)))
def number_like():
    s = text(SPC, 0, 2) if rnd.random() < .3 else ''
    s += rnd.choice(['', '', '', '-', '+', '- '])
    s += rnd.choice(['', '', '', '0x', '0X', '0b', '0B', '0x_', '0b_', '0_', '_'])
    s += text(rnd.choice(['01', '0123456789', '0123456789abcdefABCDEF', '01_', '0123456789_', list('019af_') + DIG, list('01') + SPC, 'g0:/@`Gz']), 0, 8)
    s += text(SPC, 0, 2) if rnd.random() < .3 else ''
    return s

cases = []
def add(op, args, res): cases.append('|'.join([op] + args + [res]))
for _ in range(N):
    for b in (2, 10, 16):
        s = number_like(); add('int', [str(b), enc(s)], run(lambda: int(s, b), enci))
    s = text('ab:.', 0, 9); c = rnd.choice('a:.'); add('split', [enc(c), enc(s)], run(lambda: s.split(c), strs))
    l = [text('ab', 0, 3) for _ in range(rnd.randint(0, 4))]; add('join', [enc('.'), strs(l)], run(lambda: '.'.join(l), enc))
    p = text('%25', 1, 3); r = text('%25"', 0, 3); s = text('%25', 0, 12)
    add('replace', [enc(p), enc(r), enc(s)], run(lambda: s.replace(p, r), enc))
    add('replace1', [enc(p), enc(r), enc(s)], run(lambda: s.replace(p, r, 1), enc))
    s = text('abcdef', 0, 8); i, j = rnd.randint(-10, 10), rnd.randint(-10, 10)
    add('slice', [enc(s), str(i), str(j)], run(lambda: s[i:j], enc))
    add('sliceFrom', [enc(s), str(i)], run(lambda: s[i:], enc))
    add('sliceTo', [enc(s), str(i)], run(lambda: s[:i], enc))
    k = rnd.randint(0, 9); add('index', [enc(s), str(k)], run(lambda: s[k], enc))
    s = text('+-0129', 0, 6); w = rnd.randint(0, 9)
    add('zfill', [str(w), enc(s)], run(lambda: s.zfill(w), enc))
    add('padLeft', [str(w), enc(s)], run(lambda: f"{s:>0{w}}", enc))
    add('padLeft', [str(w), enc(s)], run(lambda: f"{s:0>{w}}", enc) if w else run(lambda: s, enc))
    add('padRight', [str(w), enc(s)], run(lambda: f"{s:<0{w}}", enc))
    n = rnd.choice([rnd.randint(-20, 20), rnd.randint(-10 ** 6, 10 ** 6), rnd.randint(-10 ** 30, 10 ** 30)]); w = rnd.randint(1, 40)
    add('fmtBin', [str(n), str(w)], run(lambda: f"{n:0{w}b}", enc))
    add('fmtHexUpper', [str(n)], run(lambda: f"{n:x}".upper(), enc))
    add('intStr', [str(n)], run(lambda: str(n), enc))
    add('intPad', [str(n), str(w)], run(lambda: f"{n:>0{w}}", enc))
    if n >= 0: add('cage', [str(n)], run(lambda: f"{n:0>8b}", enc))
    c = rnd.choice([n, rnd.randint(-5, 300), rnd.randint(0x10fff0, 0x110010), 2 ** 31 + rnd.randint(-2, 2), -2 ** 31 + rnd.randint(-2, 2)])
    if not 0xd800 <= c < 0xe000: add('chr', [str(c)], run(lambda: chr(c), enc))
    s = text(rnd.choice(['%0aG-', '%25-', list('%12') + DIG[:4]]), 0, 12)
    for op, p in (('escape', '(%[0-9a-fA-F]{2})'), ('escdash', '(%[0-9a-fA-F]{2}|-)'), ('pctdig', r'(%\d\d)')):
        add(op, [enc(s)], run(lambda: re.split(p, s), strs))
    s = text(rnd.choice(['01', '0000001', '01x', '01\n']), 0, 30)
    add('six', [enc(s)], run(lambda: re.split('([0-1]{6})', s), strs))
    add('eight', [enc(s)], run(lambda: re.split('([0-1]{8})', s), strs))
    add('seven', [enc(s)], run(lambda: re.findall('.' * 7, s), strs))
    s = text('()01a\n', 0, 14)
    for k in (2, 3, 4): add('paren', [str(k), enc(s)], run(lambda: re.split(r'\(.{%d}\)' % k, s), strs))
    s = text(rnd.choice(['AZaz09+/=', 'AZaz09+/', 'AQ=\n -_', 'AQ==\xe9']), 0, 14)
    add('b64decode', [enc(s)], run(lambda: base64.b64decode(s), byts))
    b = bytes(rnd.randrange(256) for _ in range(rnd.randint(0, 9)))
    add('b64encode', [byts(b)], run(lambda: base64.b64encode(b).decode('utf-8'), enc))
    add('hex', [byts(b)], run(lambda: b.hex(), enc))
    s = text(rnd.choice(['0123456789abcdefABCDEF', 'aF09 ', 'aF09 \t\n\x0b\x1c', 'aF09g\xe9']), 0, 10)
    add('fromhex', [enc(s)], run(lambda: bytes.fromhex(s), byts))
    s = text(list('019') + DIG + ['a', '-', ' '] if rnd.random() < .3 else list('019') + DIG, 0, 4)
    add('isnumeric', [enc(s)], run(lambda: str(int(s.isnumeric())), str))
    # a random call of a function of up to four parameters
    k = rnd.randint(0, 4); nd = rnd.randint(0, k); names = 'abcd'[:k]
    src = ', '.join(x if i < k - nd else '%s=%d' % (x, 100 + i) for i, x in enumerate(names))
    env = {}; exec('def f(%s): return [%s]' % (src, ', '.join(names)), env)
    pos = [rnd.randint(0, 9) for _ in range(rnd.randint(0, k if rnd.random() < .8 else 5))]
    kw = {x: rnd.randint(10, 19) for x in rnd.sample('abcde' if rnd.random() < .3 else 'abcd'[:max(k, 1)], rnd.randint(0, min(2, max(k, 1))))}
    add('call', [','.join(x + ('' if i < k - nd else '=%d' % (100 + i)) for i, x in enumerate(names)), ','.join(map(str, pos)), ','.join('%s=%d' % t for t in kw.items())],
        run(lambda: env['f'](*pos, **kw), lambda l: ','.join(map(str, l))))
    # a random pattern, matched in three ways
    def rx(d):
        q = rnd.random()
        if d == 0 or q < .3:
            c = rnd.choice('abc'); return c, ('c', c)
        if q < .5: (a, x), (b, y) = rx(d - 1), rx(d - 1); return a + b, ('s', x, y)
        if q < .7: (a, x), (b, y) = rx(d - 1), rx(d - 1); return '(?:%s|%s)' % (a, b), ('a', x, y)
        a, x = rx(d - 1)
        if q < .78: return '(?:%s)+' % a, ('p', x)
        if q < .86: return '(?:%s)?' % a, ('o', x)
        if q < .94: m = rnd.randint(0, 2); n = m + rnd.randint(0, 2); return '(?:%s){%d,%d}' % (a, m, n), ('r', x, m, n)
        return '(?:%s)*' % a, ('*', x)
    def show(t):
        if t[0] == 'c': return t[1]
        if t[0] == 'r': return show(t[1]) + 'r%d%d' % t[2:]
        return ''.join(show(x) for x in t[1:]) + {'s': '.', 'a': '|', 'p': '+', 'o': '?', '*': '*'}[t[0]]
    p, t = rx(rnd.randint(0, 3)); p = re.compile(p)
    for _ in range(3):
        s = text('abc', 0, 5)
        add('fullmatch', [show(t).replace('|', '/'), enc(s)], run(lambda: str(int(p.fullmatch(s) is not None)), str))
        add('match', [show(t).replace('|', '/'), enc(s)], run(lambda: str(int(p.match(s) is not None)), str))
    # a random text of a pattern: of the syntax that Py/Pattern reads, and arbitrary
    def item():
        q = rnd.random()
        if q < .5: return rnd.choice(["a", "b", "0", "%", "A", ",", "'", '"', "=", "_", ";", "/", "#", "<", ":", "!", "&", ">"])
        if q < .75: return rnd.choice(["a-c", "0-9", "A-Z", "+-.", "0-1", ",-.", "a-a", "A-HJ-NP-Z"])
        return '\\' + rnd.choice('/-#.*()')
    def ptext(d, g):
        q = rnd.random()
        if d == 0 or q < .35:
            q = rnd.random()
            if q < .4: return rnd.choice("ab01%:AZ")
            if q < .5: return r'\d'
            if q < .6: return '.'
            if q < .75: return '\\' + rnd.choice('.*()/-#')
            t = ''.join(item() for _ in range(rnd.randint(1, 4)))
            return '[%s%s]' % (t, rnd.choice(['', '', '-']))
        if q < .6: return ptext(d - 1, g) + ptext(d - 1, g)
        if q < .75: return ('(%s|%s)' if g else '%s|%s') % (ptext(d - 1, g), ptext(d - 1, g))
        if not g: return ptext(d - 1, g)
        a = '(%s)' % ptext(d - 1, g) if rnd.random() < .6 else rnd.choice(['a', r'\d', '[0-9A-Z-]', '.'])
        m = rnd.randint(0, 3)
        return a + rnd.choice(['*', '+', '?', '{%d}' % m, '{%d,%d}' % (m, m + rnd.randint(0, 3)), '{,%d}' % m])
    for op, pt in (('patIn', ptext(rnd.randint(0, 4), True)), ('patIn', ptext(3, False)), ('patAny', text("ab(|)*+?{}012,[]-\\\\d./#^$%", 0, 9)),
                   ('patAny', text("ab()|*+{1}[-]", 0, 9))):
        try: c = re.compile(pt)
        except re.error: c = None
        assert c or op == 'patAny', pt
        for _ in range(3):
            s = text(rnd.choice(['ab01%', "aZ0-/#*().,:'\n", 'ab', list('ab01') + DIG]), 0, 5)
            add(op, ['full', enc(pt), enc(s)], 'O' + str(int(c.fullmatch(s) is not None)) if c else 'Ere')
            add(op, ['match', enc(pt), enc(s)], 'O' + str(int(c.match(s) is not None)) if c else 'Ere')
    pt = ptext(3, False); pt = rnd.choice([pt, '(%s)' % pt, '(%s)' % pt])
    for _ in range(3):
        s = text(rnd.choice(['ab01%', 'aZ0-/#*().,:', 'ab']), 0, 9)
        add('patIn', ['split', enc(pt), enc(s)], run(lambda: re.split(pt, s), strs))
        add('patIn', ['find', enc(pt), enc(s)], run(lambda: re.findall(pt, s), strs))
    pt = rnd.choice([ptext(3, False).replace('|', ''), ''.join(rnd.choice(['a', '0', '.', '[ab]', r'\d', r'\*', r'\.']) for _ in range(rnd.randint(1, 3)))]) + '$'
    for _ in range(3):
        s = text(rnd.choice(['ab01', 'aZ0-/#*().,:', 'ab', 'a0.*\n', '.*\n']), 0, 7)
        r = text('ab.0', 0, 3)
        add('sub', [enc(pt), enc(r), enc(s)], run(lambda: re.sub(pt, r, s, 1), enc))
# every code point: \d and its value, white space as int() sees it
for n in range(0x110000):
    if 0xd800 <= n < 0xe000: continue
    c = chr(n); d = unicodedata.decimal(c, -1)
    if c.isnumeric() or rnd.random() < .05: add('isnumeric', [enc(c)], 'O' + str(int(c.isnumeric())))
    if d >= 0 or rnd.random() < .02 or n < 0x3100:
        add('decimal', [str(n)], 'O' + str(d))
        assert (re.fullmatch(r'\d', c) is not None) == (d >= 0)
        add('int', ['10', enc(c + '7')], run(lambda: int(c + '7'), enci))
        add('int', ['10', enc('7' + c)], run(lambda: int('7' + c), enci))
        add('int', ['16', enc(c + '٠')], run(lambda: int(c + '٠', 16), enci))
        add('any', [str(n)], 'O' + str(int(re.fullmatch('.', c) is not None)))
open('/tmp/runtime_cases.txt', 'w').write('\n'.join(cases) + '\n')

PROG = r'''
import Verif.Model.Base
import Verif.Py.Call
import Verif.Py.Pattern
open Epc

def dec (s : String) : Str := if s.isEmpty then [] else (s.splitOn ".").map (fun x => Char.ofNat x.toNat!)
def encS (s : Str) : String := ".".intercalate (s.map (fun c => toString c.toNat))
def encL (l : List Str) : String := ",".intercalate (l.map (fun s => "<" ++ encS s ++ ">"))
def encB (l : List Nat) : String := ".".intercalate (l.map toString)
def decB (s : String) : List Nat := if s.isEmpty then [] else (s.splitOn ".").map String.toNat!
def decL (s : String) : List Str := if s.isEmpty then [] else (s.splitOn ",").map (fun x => dec ((x.drop 1).dropEnd 1).toString)
def shw {α : Type} (f : α → String) : Except Err α → String
  | .ok a => "O" ++ f a
  | .error .convert => "Econvert"
  | .error .value => "Evalue"
  | .error .key => "Ekey"
  | .error .index => "Eindex"
  | .error .overflow => "Eoverflow"
  | .error .type => "Etype"
def b01 (b : Bool) : String := if b then "O1" else "O0"

def rxGo : List Char → List Re → Re
  | [], [r] => r
  | [], _ => .none
  | '.' :: t, b :: a :: st => rxGo t (.seq a b :: st)
  | '/' :: t, b :: a :: st => rxGo t (.alt a b :: st)
  | '+' :: t, a :: st => rxGo t (Re.plus a :: st)
  | '?' :: t, a :: st => rxGo t (Re.opt a :: st)
  | '*' :: t, a :: st => rxGo t (.star a :: st)
  | 'r' :: m :: n :: t, a :: st => rxGo t (Re.range a (m.toNat - 48) (n.toNat - 48) :: st)
  | c :: t, st => rxGo t (Re.chr c :: st)

def params (s : String) : List (Param Int) := if s.isEmpty then [] else (s.splitOn ",").map (fun x => match x.splitOn "=" with
  | [a, d] => ⟨a.toList, some d.toInt!⟩
  | _ => ⟨x.toList, Option.none⟩)
def kws (s : String) : List (Str × Int) := if s.isEmpty then [] else (s.splitOn ",").map (fun x => match x.splitOn "=" with
  | [a, d] => (a.toList, d.toInt!)
  | _ => (x.toList, 0))
def ints (s : String) : List Int := if s.isEmpty then [] else (s.splitOn ",").map String.toInt!

def pat (how : String) (p s : Str) : String :=
  match how with
  | "full" => match compile p with
    | some r => b01 (r.fullmatch s)
    | Option.none => "refused"
  | "match" => match compile p with
    | some r => b01 (r.matchPrefix s)
    | Option.none => "refused"
  | "find" => match findAllBy p s with
    | some l => "O" ++ encL l
    | Option.none => "refused"
  | _ => match splitBy p s with
    | some l => "O" ++ encL l
    | Option.none => "refused"

def eval (op : String) (a : List String) : String :=
  match op, a with
  | "int", [b, s] => shw toString (pyInt b.toNat! (dec s))
  | "split", [c, s] => "O" ++ encL (split ((dec c).headD ' ') (dec s))
  | "join", [c, l] => "O" ++ encS (joinWith ((dec c).headD ' ') (decL l))
  | "replace", [p, r, s] => "O" ++ encS (replaceAll (dec p) (dec r) (dec s))
  | "replace1", [p, r, s] => "O" ++ encS (replaceFirst (dec p) (dec r) (dec s))
  | "slice", [s, i, j] => "O" ++ encS (sliceI (dec s) i.toInt! j.toInt!)
  | "sliceFrom", [s, i] => "O" ++ encS (sliceFromI (dec s) i.toInt!)
  | "sliceTo", [s, i] => "O" ++ encS (sliceToI (dec s) i.toInt!)
  | "index", [s, i] => shw (fun c => encS [c]) (getIdx (dec s) i.toNat!)
  | "zfill", [w, s] => "O" ++ encS (zfill w.toNat! (dec s))
  | "padLeft", [w, s] => "O" ++ encS (padLeft '0' w.toNat! (dec s))
  | "padRight", [w, s] => "O" ++ encS (padRight '0' w.toNat! (dec s))
  | "fmtBin", [n, w] => "O" ++ encS (fmtBin n.toInt! w.toNat!)
  | "fmtHexUpper", [n] => "O" ++ encS (fmtHexUpper n.toInt!)
  | "intStr", [n] => "O" ++ encS (intStr n.toInt!)
  | "intPad", [n, w] => "O" ++ encS (padLeft '0' w.toNat! (intStr n.toInt!))
  | "cage", [n] => "O" ++ encS (padLeft '0' 8 (Nat.toDigits 2 n.toNat!))
  | "chr", [n] => shw (fun c => encS [c]) (chr n.toInt!)
  | "escape", [s] => "O" ++ encL (splitCap escapeLen (dec s))
  | "escdash", [s] => "O" ++ encL (splitCap escapeOrDashLen (dec s))
  | "pctdig", [s] => "O" ++ encL (splitCap percentDigitsLen (dec s))
  | "six", [s] => "O" ++ encL (splitCap (bitsLen 6) (dec s))
  | "eight", [s] => "O" ++ encL (splitCap (bitsLen 8) (dec s))
  | "seven", [s] => "O" ++ encL (findAll (fixedLen (List.replicate 7 anyChar)) (dec s))
  | "paren", [k, s] => "O" ++ encL (splitNoCap (parenLen k.toNat!) (dec s))
  | "b64decode", [s] => shw encB (b64decode (dec s))
  | "b64encode", [b] => "O" ++ encS (b64encode (decB b))
  | "hex", [b] => "O" ++ encS (bytesHex (decB b))
  | "fromhex", [s] => shw encB (bytesFromHex (dec s))
  | "isnumeric", [s] => b01 (isNumeric (dec s))
  | "call", [p, pos, kw] => shw (fun l => ",".intercalate (l.map toString)) (bindArgs (params p) (ints pos) (kws kw))
  | "fullmatch", [r, s] => b01 ((rxGo r.toList []).fullmatch (dec s))
  | "match", [r, s] => b01 ((rxGo r.toList []).matchPrefix (dec s))
  | "patIn", [how, p, s] => pat how (dec p) (dec s)
  | "patAny", [how, p, s] => pat how (dec p) (dec s)
  | "sub", [p, r, s] => match subBy (dec p) (dec r) (dec s) with
    | some t => "O" ++ encS t
    | Option.none => "refused"
  | "decimal", [n] => match decimalVal (Char.ofNat n.toNat!) with
    | some d => "O" ++ toString d
    | Option.none => "O-1"
  | "any", [n] => b01 (anyChar (Char.ofNat n.toNat!))
  | _, _ => "unknown operation"

def main : IO Unit := do
  let mut bad := 0
  let mut n := 0
  let mut refused := 0
  for l in (← IO.FS.readFile "/tmp/runtime_cases.txt").splitOn "\n" do
    if l.isEmpty then continue
    match l.splitOn "|" with
    | op :: rest =>
      n := n + 1
      let got := eval op rest.dropLast
      if op == "patAny" && got == "refused" then refused := refused + 1
      else if got != rest.getLast! then
        bad := bad + 1
        if bad ≤ 30 then IO.println s!"{l}  model: {got}"
    | [] => pure ()
  IO.println s!"{n} cases, {bad} disagreements ({refused} patterns refused)"
'''
open('/tmp/runtime_check.lean', 'w').write(PROG)
print(sys.version.split()[0], 'Unicode', unicodedata.unidata_version)
sys.exit(subprocess.run('lake env lean --run /tmp/runtime_check.lean', shell=True, cwd=LEAN).returncode)
