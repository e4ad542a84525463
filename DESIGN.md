# Formal model of nedap/retail-epcpy in Lean 4

`/repo` (python, pinned commit) is read as text; it is never run. The model lives in `lean/Verif/`.

## 1. Layers

| layer | modules | content |
|---|---|---|
| Python runtime | `Verif/Py/*.lean` | threads that share objects (`Py/Threads`), argument binding (`Py/Call`), classes with multiple inheritance (`Py/Class`), strings as `List Char`, `str.split/join/replace/zfill`, slices, `int(s, base)`, `format(n, "0wb")`, regular expressions (`fullmatch`, prefix `match`, capturing `re.split`), a reader for their syntax (`Py/Pattern`), a backtracking matcher that counts its steps (`Py/Backtrack`), base64 |
| Library model | `Verif/Model/*.lean` | `utils/common.py`, `utils/regex.py`, `epc_schemes/base_scheme.py`, the 21 scheme classes, `utils/parsers.py`, function by function, each definition citing file and lines; the output methods as Python calls (`Model/Calls`), with arguments of other classes (`Model/Foreign`), under threads (`Model/Threads`), constructors under the digit limit (`Model/Limit`), the class hierarchy (`Model/Classes`), numbers as arguments (`Model/Numbers`) |
| Source | `Verif/Src/*.lean` | the statements of every function and class of `/repo/epcpy` as syntax trees (`Src/Code`, generated from the text by `tools/gen_src.py`), and an interpreter for them (`Src/Interp`) over the Python runtime layer |
| Refinement | `Verif/Refine/*.lean` | for every function: executing its statements ends exactly as the library model says |
| Specification | `Verif/Spec/*.lean` | small independent definitions used in theorem statements (GS1 weighted sum, canonical serial, digit strings, documented URI shapes, bit layouts, error cases, ranges of lengths, what a call passes) |
| Lemmas | `Verif/Lemmas/*.lean` | auxiliary facts, no claims |
| Properties | `Verif/Props/*.lean` | one file per group of claims; named theorems listed in MANIFEST.json, non-vacuity `example`s beside them |
| Tests | `Verif/Tests/*.lean` | `decide` evaluations of the model against the vectors of `/repo/tests` (tests of the model's fidelity, not proofs) |

### Conventions

* Exceptions are values: every fallible function returns `Except Err a`, with one constructor of `Err` per Python
  exception class the code can raise (`ConvertException`, `ValueError`, `KeyError`, `IndexError`, `OverflowError`, and `TypeError` for a
  call whose arguments do not fit the parameters).
  Messages are not modelled.
* A Python object of scheme class `X` is a Lean structure `X` with the attributes its `__init__` stores. `X.new : Str -> Except Err X`
  is `X(uri)`.
* `Enum` parameters are finite types: filter values are `Fin 8` (`Fin 16` USDOD, `Fin 64` ADI), coding schemes are small inductives. Python's
  dynamic typing (passing a wrong type) is not modelled, except that the calls of `Model/Calls` may pass a filter value for a coding
  scheme and the other way round, and those of `Model/Foreign` coding schemes and filter values of other classes.
* Regular expressions are an abstract syntax with a denotational semantics `Re.Lang` and an executable derivative
  matcher; `Re.fullmatch_iff` proves they agree, so theorems may use either.

## 2. Trusted base

* Lean 4.33.0 kernel; theorems use at most `propext`, `Classical.choice`, `Quot.sound` (`AXIOMS.txt` lists them for each theorem, written by `tools/gen_axioms.py`). No own axioms, no `sorry`, no `native_decide`/`bv_decide`.
* For the claims C91-C112, and through the refinement theorems for the library model as a whole: the translation of the text of `/repo/epcpy`
  into syntax trees (`tools/gen_src.py`, which uses Python's own parser and only renames nodes: f-strings become concatenations of formatted
  values, a chained comparison and a comprehension have their own node, annotations and docstrings are dropped; `tools/check_src.py` reads the
  Lean terms back into Python and compares them with the source, 1606 comparisons without difference) and the interpreter
  `Verif/Src/Interp.lean` (about 800 lines; its simplifications are listed at its top). `tools/interp_check.py` compares translation and
  interpreter together with CPython 3.11.10: it writes random packages (functions with defaults, `*args`, `**kwargs`, class hierarchies, class
  methods, nested enumerations, loops, comprehensions, exceptions, f-strings), none with code of the library, and runs every entry function both
  ways (47,126 entries in 135 packages, no disagreement except for upper and lower case of characters that are not ASCII; 3,028 of them leave the interpreter's scope and end in `unsupported`). The hand-written model is then not trusted for
  what it covers in the refinement: all functions and methods of `/repo/epcpy`. Regular expressions are, in the interpreter, what the reader
  `Py/Pattern.lean` (about 150 lines) makes of the texts that stand in `regex.py` and in the calls of the functions of `re`; a pattern outside the
  syntax it reads makes the execution stop with `unsupported`, which the refinement theorems exclude.
* The transcription of Python into the model, for what the refinement does not cover: `Model/Calls` (C76, C77; C99 states argument passing
  about the executed source instead), `Model/Threads` (C73, C74; C102 likewise), `Model/Limit`, and of `Model/Classes` what Python makes of class statements, which
  themselves are those of the source (`Refine/Classes`; C101 states the same about the executed source) (checked by reading every file of `epcpy/` side by side with its model a second time after the
  proofs, by the citations, and by the test vectors of the repository).
* The Python runtime layer: semantics of `re`, `int`, `format`, slices, `str.split/replace`, `base64` for CPython 3.11 (Unicode 14).
  `tools/runtime_check.py` compares this layer with CPython 3.11.10 on random arguments and on every decimal digit and white space of Unicode
  (471 644 cases of 42 operations, among them random texts of patterns against `re.match`, `fullmatch`, `split`, `findall` and `sub`, no
  disagreement); it calls built-ins only, never the library.

### Not modelled / simplified

* Exception messages; assignments to attributes by the caller, `__repr__`, logging.
* The interpreter does not carry assignments to attributes from one call to the next. C100 proves that the text has only one outside
  constructors (`_tag_uri` in `CPI.tag_uri`), and that the output methods and comparisons of an object do the same whatever value it stored.
* Lone surrogate code points (Lean `Char` excludes them).
* `str.upper` and `str.lower` change ASCII letters only. The library applies them to names of classes, to hexadecimal digits, and to the first two
  characters of the argument of `get_gs1_key`, there only to ask whether they are one of the headers; outside ASCII only U+FB00 has an upper
  case of hexadecimal digits (`FF`, no header).
* CPython's configurable limit on decimal conversions (`sys.set_int_max_str_digits`, 4300 digits by default): model `int` and `str` accept any
  length. Through the classes the limit is reachable only in `GID(...)` and `USDOD(...)`, because every other class checks lengths before
  converting; C81 models these two constructors with the limit and proves that it only turns ConvertException into ValueError. Of the helper
  functions it concerns `str_to_binary`, `encode_numeric_string`, `decode_numeric_string`, `encode_fixed_width_integer` on arguments of that
  size; there it is not modelled.
* Threads (C73, C74): an access to an attribute is atomic, and another thread may run between any two accesses, as the Python language
  permits (CPython up to 3.9 and free-threaded builds do it; pyproject.toml asks for 3.8 or later). Attributes that only `__init__`
  assigns are read in one action, which is the same because nobody assigns them again. Callers that assign attributes themselves are not
  modelled.
* `math.log` float computation in `decode_fixed_width_integer` is modelled by the integer it produces: `int(n * log(2) / log(10))` in CPython is
  the exact floor for every `n` below 20 000 000 (computed).

## 3. Properties: plan

| id | modelled | how proved |
|---|---|---|
| C01 | `replace_uri_escapes`, `revert_uri_escapes` as 7 successive `replaceAll` | show both equal a one-pass character map on the relevant inputs, induction over the string |
| C02 | `int_to_binary`, `binary_to_int` | induction on digits (`Nat.toDigits` lemmas) |
| C03 | hex/base64 functions | nibble/sextet induction |
| C04 | `encode_string`, `decode_string` with the real regex splits | split of a canonical serial computed by induction; 7-bit chunks decoded by induction; zero chunks vanish |
| C05 | six-bit codec | same with 6-bit chunks and terminator |
| C06 | `encode/decode_partition_table` on all tables | row lemma with width facts `10^L <= 2^M` by evaluation; digit strings by induction |
| C07, C08 | numeric string, fixed width integer | arithmetic; C08 is false at "99" (negation proved, `_partial` for the others) |
| C09 | `calculate_checksum` | independent spec: weighted sum; induction over positions |
| C10 | GSIN checksum | list induction two at a time |
| C11, C12 | constructors | regex language inversion + `split` lemmas |
| C13-C15 | constructors, `verify_gs3a3_component` | counterexamples by evaluation, `_partial` on canonical components |
| C16-C18 | `tag_uri`, `from_tag_uri` | generic lemma on `from_tag_uri` of a well-formed tag URI |
| C19-C24 | `binary`, `from_binary` | reduce to C02-C08 field lemmas, then to C16 |
| C25, C26 | `hex`, `base64` and inverses | C03 + padding |
| C27-C31 | header parsing, partition decode | case analysis on the strings |
| C32-C36 | element strings, keys | slices of known-length strings, C09, C01 |
| C37 | element-string regexes | languages start with distinct literal prefixes |
| C38-C42 | parsers | case analysis on the dispatch, regex-language disjointness of the seven source formats |
| C43-C45 | equality, hex case, keys | direct |
| C46 | element strings available | UPUI violates it (negation), others proved |
| C47 | long schemes always available | case analysis on the constructor's conditions |
| C48 | exact acceptance, free-form serials | regex languages + `verify` lemma, both directions; Spec/Serial |
| C49 | size whenever long binaries return | weight argument over the pieces of `encode_string`; ITIP refuted |
| C50 | single-pass escaping on all strings | commuting replacements, induction on the text |
| C51 | binary refuses what tag_uri refuses | refuted for all seven schemes; aliasing theorem; `_partial` on letters |
| C52 | complete specification of numeric decoding | layout specification `Spec/Layout.lean` (bit fields), both directions, 13 encodings |
| C53 | complete specification of decoding with text | seven-bit groups as a specification function; outcome split by the text |
| C54 | complete specification of CPI-var decoding | six-bit text as a specification function; induction on the groups |
| C55 | complete specification of ADI-var decoding | first (unaligned) six zeros; least position; six-bit texts |
| C56 | complete specification of encoding | list of (width, number) fields as specification; `bitsOf` by recursion; per scheme rewriting |
| C57 | a tag URI determines the tag | form of the tag URI (TagForm), separator injectivity, parser specification (ParseTag) |
| C58 | bits determine class, coding scheme, filter | header and filter split (BinSplit); header table disjoint |
| C59 | complete specification of from_gs1_element_string | pattern languages and slices (ElemParse); outcome split; negative lengths reduced to non-negative ones |
| C60 | which exceptions the parsers raise | closure of the exception set under the operations the parsers use (Tame), headers and colons for the two exceptions beyond it |
| C61 | get_gs1_key answers exactly for denoting strings | one notation per branch of the chain; disjointness of the notations; the objects come from the constructors (Made) |
| C62 | text of the element strings | the attributes read off the URI, the check digit of C33, the unescaping of C50; injectivity from the fixed length of the key |
| C63 | digits of other scripts | a function that rewrites digits commutes with every operation the outputs are made of (Lemmas/Script) |
| C64 | reading and writing again | decoding specifications (C52–C54) give the object, the encoders' round trips (C21–C23, C16) take it back; exceptions stated and proved to fail |
| C65 | from_gtin_plus_serial | zfill and slice algebra with clamped bounds; constructor's shape theorem |
| C66 | CAGE, single-character and part-reference helpers | induction over the groups of bits; decide over the 128 seven-bit codes (the whole domain) |
| C67 | constructors with a free-form serial, exact domain and exceptions | specification of Python's base-16 numbers proved equal to int(s, 16); the split of the verifier is an independently defined cut; error of the first failing piece |
| C68 | round trips and injectivity for digits of any script | C63 moves every object to its ASCII twin with the same binary; then the field lemmas of C21-C24 |
| C69 | `binary` on every object, also inexpressible ones | specification of Python integer texts (sign, underscores) and of the cut at `%hh`; `int`, `format` and `encode_string` proved equal to them; fields by C56, other scripts by C63 |
| C70 | exact exceptions of `from_tag_uri`, of `from_binary` of the encodings with a text, and of `from_gs1_element_string` | reduce each to the constructor on a URI of known components and use C67 |
| C71 | `from_binary` then `binary` for the encodings that C30 does not show to be exact | decoded fields (C52–C55) and bit layout (C56); each field of the layout is the field of the bits again; induction over the groups of the text |
| C72 | `hex`, `base64`, `from_hex`, `from_base64` on every input | `pyInt 16` yields a number below 16^(number of digits in the text), so every text with another character gives a binary whose first four characters are zeros (or a minus sign): no header. The base64 reader is proved equal to the specification group by group (`a2b_data`). |
| C73 | objects with an assignable attribute, method bodies as programs of atomic attribute accesses (`Py/Threads`, `Model/Threads`) | one client of the thread machine; invariant of C74 |
| C74 | any number of threads and objects, arbitrary schedules | inductive invariant over the schedule (where each body is, what the attribute holds); refuted for `CPI.tag_uri` by a schedule of eight actions; a measure for termination |
| C75 | `int(text, 2)` on any text; fields rewritten to bits of the same number (`Spec/Fields`) | refuted for each of the 14 classes; for all 21 encodings: two texts whose fields are the same numbers decode alike, and a number read from `w` characters fits `w` bits |
| C76 | Python argument binding (`Py/Call`), the output methods as calls (`Model/Calls`), `Spec/Call` | refuted for each of the 14 classes (positional arguments are dropped); the keyword arguments alone decide |
| C77 | as C76 | binding shown equivalent to the declarative `Passes`; 13 classes proved, ITIP refuted (its two methods have opposite orders) |
| C78 | chains of conversions as an inductive relation (`Spec/Relay`: `Sent`, `Relay`, `Portable`) | one step suffices (induction over the chain); per class an exact condition, from C16, C32, C39, C46, C63, C68, C69 |
| C79 | `from_tag_uri` with its flag (`fromTagUri`) | refuted for each of the 13 classes (the pattern demands a filter value); what is returned, if anything, is the named object |
| C80 | as C79 | the filter value would have to be a company prefix or CAGE code, which is longer |
| C81 | `int` with a limit on the number of digits, constructors of GID and USDOD with it (Model/Limit.lean) | a numeral beyond the limit is out of range anyway; length bounds for the attributes of the other classes |
| C82 | a backtracking engine with a budget of steps (Py/Backtrack.lean) | exhaustive search bounds the steps of every run; compositional bounds on its ways and steps, from the facts that the items of each repetition match in one way and that a repetition is followed by a character none of its items starts with; contrast: `(a\|a)*` needs 2ⁿ steps |
| C83 | constructors, `tag_uri`, `gs1_element_string` (already modelled); `Span`: least and greatest length of a set of texts | constructor characterisations; unescaping shortens a text at most to a third; a numeral below 10ᵏ has at most k digits; a text attaining either bound by evaluation |
| C84 | `tag_uri`, `binary`, `hex`, `base64` of the 14 classes with a coding scheme of any class (`Model/Foreign`) | cases on the class of the coding scheme; the tag pattern and the constructors of the other classes; claim is false, refuted per class |
| C85 | the same with a filter value of any class | the filter value is one field of the concatenation; its bits by evaluation over the 64 values; claim is false for 12 classes, refuted per class |
| C86 | the class statements with their bases and attributes (`Model/Classes`), C3 linearisation, attribute lookup, `super().__init__` (`Py/Class`) | the linearisation of every class contains exactly the classes it derives from (induction over the merge); lookups by evaluation over the finite hierarchy, names outside it by congruence |
| C87 | `hash` through the implicit `__hash__ = None` of a class with `__eq__` | claim is false, refuted; no object can be hashed; `in` of a list is equality of URIs |
| C88 | constructors, `==` and `from_tag_uri` of the base classes | claim is false, refuted; exactly the scheme classes validate |
| C89 | `SGTIN.from_gtin_plus_serial` with an integer serial (`Model/Numbers`) | C65 for the cut of the GTIN; `str(k)` consists of characters that need no escape; lengths of numerals against powers of ten |
| C90 | `gtin`, `gs1_key` with an integer for the kind of GTIN | claim is false for n > 14, refuted; exact result for every n by arithmetic on slice bounds |
| C91 | the source as syntax trees (`Src/Code`), executed (`Src/Interp`): constructors and class methods | symbolic execution of every function by a simplification tactic (`Refine/*`), one theorem per function, composed along the call graph |
| C92 | the same, methods of objects | as C91 |
| C93 | the same, `parsers.py` with its tables | as C91; the tables are evaluated in the kernel, loops by induction over them |
| C94 | the same, exceptions | corollary of C91-C93: the outcomes are values or one of the six exceptions of the model |
| C95 | the same, binding of arguments | equality of the frames at the start of the call |
| C96 | the texts of the patterns as they stand in `regex.py`, a reader for the syntax of regular expressions (`Py/Pattern`), the formats as tables (`Spec/Grammar`) | the reader is evaluated in the kernel on each text, and its result is shown to have the language of the table by induction over the fields |
| C97 | programs over the executed source: objects, texts and chains of conversions as values of the interpreter (`Spec/Program`); the conditions are on the text of the URI | one step decides a chain (induction); a step of the executed source is a step of the model (C91-C93), for which C78 gives the conditions; these are rewritten as conditions on the text |
| C98 | C84, C85, C89, C90 for the executed source: members of other enumerations, plain integers | `Refine/Foreign/*`, `Refine/Numbers`: symbolic execution with a coding scheme of any class and an integer; `Lemmas/Unusual` composes them with C84, C85, C89, C90 |
| C99 | Positional, keyword and default arguments of every public call, with any values | `Passes` (`Spec/Call`) against the parameters in the syntax trees: `Lemmas/Signature` proves by induction over the parameters that the interpreter binds what `Passes` says; the parameters of each method are compared with `Spec/Signature` |
| C100 | Attributes assigned outside of constructors; histories of calls on objects executed from the source | A function that collects the assigned attributes, evaluated on every syntax tree; `Lemmas/History`: symbolic execution of the methods of CPI with an arbitrary `_tag_uri` and arbitrary arguments; induction over histories |
| C101 | Class hierarchy, missing methods, base classes used directly, executed from the source | `mro_mem` for the method resolution order of the interpreter; symbolic execution with arbitrary arguments; `Refine/Classes` proves that the class statements of `Model/Classes` are those of the source |
| C102 | Calls that share objects under every schedule, executed from the source | `Spec/Shared`: functions that collect the attributes read, evaluated on every syntax tree; `CPI.tag_uri` split at its last statement; an invariant of every schedule (`Lemmas/Shared`) |
| C103 | Keyword arguments that `get_gs1_key` and `epc_pure_identity_to_gs1_key` hand on, executed from the source | `Spec/Forward`: parameters with `**kwargs`; binding of arguments by induction over the parameters; the key of an object does not depend on the depth of the call (`Lemmas/Forward`) |
| C104 | Coding schemes, filter values and kinds of GTIN given by name, executed from the source | `Spec/Members`: the names, headers and numbers of the standard; reading the members is evaluated, the writers are those of C92, the form of their results by C57 and C58 |
| C105 | The company prefix length only decides where the URI is divided | from the exact description of the parsers (C59): digits and rest of the string are the same for both lengths and the key is computed from them alone; once for the model, once for the functions executed from the source |
| C106 | Schemes that identify the same thing give the same key | from the exact descriptions of the constructors: the key is a function of company prefix and reference alone, the same for each scheme; once for the model, once executed from the source |
| C107 | A mistyped digit of a key is always noticeable | weights 1 and 3 are units modulo 10 and their difference is 2: replacing one digit changes the weighted sum modulo 10, interchanging neighbours changes it by twice their difference; induction over the digits in front of the change |
| C108 | Two URIs have the same key exactly if they consist of the same digits | the key is its text with the check digit inserted at a fixed place, which is injective; lengths of prefix and reference add up to a constant |
| C109 | More of the memory of a tag may be read than its EPC occupies | fixed sizes: too short texts are refused (C28) and the header decides how much is read (C27); variable sizes: decoding of what was written ends at the terminator (C68, C23), whatever follows |
| C110 | From the GTIN and the serial number of an item to its tag and its label, and back, executed from the source | `Spec/Commission`; the object by C65 and C48, its key by C35, the label by C32 and C37, the tags by C17, C47, C68, read back by C16, C39, C40; all transferred to the source by C91-C95 |
| C111 | What is read from a label survives every chain of conversions, executed from the source | the URI made of an accepted label (the readers of C59) has a canonical serial number without a group that looks like an application identifier, so it meets the conditions of C97; concrete labels for the necessity of the conditions |
| C112 | What is read from a tag survives every chain of conversions, executed from the source | `Spec/FromTag`; the URI of what is read is given bit by bit by C52-C55, coding scheme by coding scheme (`Lemmas/FromTag`), and meets all conditions of C97 but those named; concrete tags for the necessity of these |

Where the code violates the English property, the file contains a theorem `..._false`/`..._counterexample` proving the negation with a
concrete witness and a `_partial` theorem with the exact extra hypothesis. Section 4 lists these findings.

Statements depend only on `Verif/Py`, `Verif/Model`, `Verif/Spec` and, for claims about the executed source, `Verif/Src` (syntax trees and
interpreter): `tools/check_statements.py` extracts every statement of `Verif/Props` and compiles them with those four layers alone, so
nobody has to read a lemma to know what is claimed. The specification modules are

| module | vocabulary |
|---|---|
| `Spec/Basic` | digits, bits, ASCII, the GS1 82- and 39-character sets, percent escaping, weighted sum, numerals, numbers |
| `Spec/Digits`, `Spec/Numbers`, `Spec/Script` | decimal digits of any script, canonical serials, `LoneLetterEscapes`; decimal integers; the ASCII digit of the same value |
| `Spec/Tables`, `Spec/Field`, `Spec/Layout` | TDS partition tables, bit fields, tag layouts (lists of (width, number)) |
| `Spec/Fields`, `Spec/Encode`, `Spec/Pieces` | fields that are numbers for `int(text, 2)`; what the encoder makes of any serial number and its percent signs |
| `Spec/Six`, `Spec/Hex`, `Spec/Serial`, `Spec/Transport` | six-bit codes, hexadecimal and base64 forms, serial number conditions; hexadecimal and base64 text as bits |
| `Spec/Elem`, `Spec/Key`, `Spec/KeyText`, `Spec/Mistype`, `Spec/Span` | parenthesised groups, corrected check digits, keys and what of a URI is in them; mistyped and interchanged digits; the shortest and longest text of a set |
| `Spec/Grammar` | the formats of URIs and element strings as tables |
| `Spec/Denotes`, `Spec/Relay` | the six notations for an object; chains of conversions |
| `Spec/Call`, `Spec/Class`, `Spec/Errors` | what a call passes, derivation of classes, which exceptions a call can raise |
| `Spec/Objects`, `Spec/Source` | objects and coding schemes as values of the interpreter; the four things a user program does: construct, read, invoke, call a function |
| `Spec/Program`, `Spec/Family`, `Spec/Commission`, `Spec/FromTag` | programs that send an EPC on; the families of classes and their methods; the tag and the label of an item; the conditions on what is read from tags |
| `Spec/History`, `Spec/Shared` | calls one after the other on the same objects; threads that share objects |
| `Spec/Signature`, `Spec/Forward`, `Spec/Members`, `Spec/Unusual` | parameters of the public calls; `**kwargs`; members of enumerations by name; members of other enumerations |

Many files under `Lemmas` and `Props` are written by the scripts in `tools/` (one theorem per scheme); the generated files are committed.
`tools/audit_coverage.py` compares the functions of `/repo/epcpy` with the citations in the model: all 174 functions are cited, among them
the abstract methods and the `__init__`s of base classes, which only store the URI.

## 4. Findings

Properties a user would expect and the code violates. Each is proved (theorem in parentheses); the property keeps its statement, has status
`partial`, and the strongest true form is proved beside it.

| finding | where proved |
|---|---|
| Percent escapes: the pattern accepts `%` and one hexadecimal digit, and the check reads the two characters after a lone letter code again, so the canonical serial `%2Fxyz` raises ValueError and `%2F0000000` OverflowError | C13, C15 |
| For the same reason an SGTIN-198 tag with serial `/xyz` cannot be decoded | C53 |
| `%4_1`, `%0x41` and lower-case escapes are accepted; several URIs mean the same serial | C12, C48 |
| `\d` accepts digits of every script | C14 |
| GIAI: everything behind a colon in the asset reference is lost (attribute, tag URI, binary, element string) | C11, C16, C21, C22, C24, C32, C57 |
| GRAI, GDTI and GIAI limit the length of the escaped text, not of the serial | C12 |
| `tag_uri` may return although `binary` raises (SGTIN `a%2F%4zz`), and `binary` does not check what `tag_uri` checks: leading zeros of a numeric serial are lost | C20, C51 |
| `encode_fixed_width_integer` refuses 99; ITIP with piece or total 99 cannot be encoded; piece and total lengths are not checked, and one-digit values give binaries of wrong length | C08, C19, C20, C49 |
| ADI: `from_binary` looks for the terminator at every bit offset and splits the part number in the wrong place | C23, C55 |
| CPI-var: a missing terminator is not noticed, the serial is read as 0; `%23` and `#` give the same EPC | C54 |
| SGTIN-198: NUL characters inside the serial are skipped; SSCC, GSRN, GSRNP ignore the last 24 bits; SGLN, GRAI, GDTI, SGCN ignore the reference field if the company prefix has twelve digits; CPI-96 and GIAI-96 do not bound the reference | C30, C31, C52, C53 |
| `X.from_binary` raises KeyError on a foreign header instead of ConvertException | C29 |
| `from_gs1_element_string`: the check digit is ignored; serials with a parenthesised group of two (SGLN: three) characters raise ValueError; negative company prefix lengths are accepted; for GIAI and GINC a dot moves the boundary of the company prefix | C32, C36, C59, C105, C107 |
| UPUI: the company prefix length is not checked and the item reference may be empty, in which case `gs1_element_string` raises IndexError | C46 |
| SGCN: a serial with non-ASCII digits gives an element string its own parser refuses | C46 |
| idpat URIs: the key of a GRAI/GDTI pattern ends in `*`, that of a GIAI/GINC pattern is the prefix and `*` | C41 |
| `epc_pure_identity_to_scheme` raises IndexError on strings with fewer than three colons | C38 |
| The docstring of `get_gs1_key` promises ConvertException only; ValueError and OverflowError occur | C60 |
| CPI-96 tags whose company prefix and part reference exceed 15 digits are decoded and encoded, but `tag_uri` refuses them; ADI tags are read that, written again, cannot be read | C64 |
| `CPI.tag_uri` keeps its result in the object before it returns it: under threads a call may return the tag URI another thread asked for | C74 |
| `binary` reads numbers with Python's `int`: a serial `-5` puts a minus sign among the bits (then `hex`, `base64` raise ValueError), `+5` and `1_2` are accepted, numbers too large for their field make the binary longer | C51, C69, C72 |
| The serial `x%4a%4z` is accepted, but `binary` raises ValueError for the encodings with a text | C69 |
| GRAI, GDTI, LGTIN, UPUI and ITIP raise ValueError or OverflowError for an odd serial before they look at the company prefix | C67 |
| `from_gtin_plus_serial` ignores the check digit and accepts texts with dots, which move the borders of the components | C65 |
| Binaries of digits of another script are those of the ASCII digits: the identity read back differs from the one written | C63, C68 |
| `from_hex` of a text with blanks, a sign or `0x` raises KeyError instead of ConvertException; `from_base64` ignores characters outside the alphabet | C72 |
| `from_binary` takes texts that are no bit strings (`+01`, ` 01`, `0_1`, `0b1`, digits of other scripts in a field); a minus sign in front of a serial yields the serial `-5` | C75 |
| The retry of idpat URIs with a dummy serial is dead code: whenever it could succeed the pattern itself was accepted | C61 |
| `hex(...)` and `base64(...)` accept positional arguments and drop them: GSRN and GSRNP silently encode filter value 0, the other classes raise TypeError | C76 |
| `ITIP.tag_uri` takes the coding scheme first, `ITIP.binary` the filter value | C77 |
| `from_tag_uri(..., includes_filter=False)` rejects the tag URIs it is meant for: the pattern demands a filter value anyway | C79 |
| `GID.from_tag_uri(t, includes_filter=True)` silently drops the first component of `urn:epc:tag:gid-96:A.B.C.D` | C80 (such `t` is not written by `tag_uri`) |
| `tag_uri` accepts the coding scheme of any other class and returns a tag URI of that class: an SSCC written as `gsrn-96` is read back as a GSRN; `binary` raises KeyError | C84 |
| `binary` accepts filter values of other classes that do not fit the field: all later fields are shifted and the text is too long | C85 |
| The classes define `__eq__` without `__hash__`: no EPC object can be put into a set or used as a dictionary key | C87 |
| `from_gtin_plus_serial` accepts a negative number as serial; `gtin(gtin_type=15)` returns the last digit of the GTIN | C89, C90 |
| The base classes accept any text as URI, and such objects equal validated ones; `TagEncodable.from_tag_uri` of a GID tag URI drops its first component | C88 |

## 5. Tests against wrong programs

`seeded/` contains the edits and the harnesses. `LOG.jsonl` has one line per edit.

* `mutants1.json`, `mutants3.json`, `mutants4.json` are edits of the model written by hand after realistic bugs; `mutants2.json` are edits
  of the model generated at random places (a boundary, an operator, a constant, a dropped condition).
* `run.py` applies an edit to a scratch copy of the project, checks with a concrete witness that the edit changes the program, rebuilds, and
  records the theorems and lemmas whose proofs fail.
* A failing proof may only show that the proof is brittle, so `refute.py` goes further: it compiles the *statements* of all theorems
  against the edited model and searches, with values from `pool.json`, for an instance at which the statement is false; an instance counts only
  if the Lean kernel accepts the resulting proof of `statement -> False`. With `-k` it stops at the first such instance.
* `source.py` edits a copy of the text of `/repo` itself, translates it again with `tools/gen_src.py`, and rebuilds: an edit that changes
  the behaviour must break the refinement theorems of the edited function.
* `by_hand.py` edits the model or the translated source and refutes, in the kernel, statements at an instance written by hand: for C105-C109, C111 and C112, whose hypotheses the values of
  the pool hardly meet, and for edits that no value of the pool distinguished. The same proofs are tried on the unedited model, where they must fail.
* `survivors.json` explains the edits for which no theorem fails (they do not change the behaviour), `tightened.json` names the theorems
  that were strengthened after an edit showed them to be too weak.
