#!/usr/bin/env python3
"""Generate lean/Verif/Model/Calls.lean (the output methods as they are called: positional and keyword arguments) and lean/Verif/Props/C76.lean."""
import os
ROOT = os.path.dirname(os.path.dirname(os.path.abspath(__file__)))
# class: (file, filters, lines of the two signatures, order of the parameters of tag_uri, of binary, default scheme, default filter, check, rest of the tag URI, sample body)
S, F = "scheme", "filter"
X = {
 "SGTIN": ("sgtin", 8, "265-269", "296-300", [S, F], [S, F], None, None, "badSerial", "x.companyPref ++ '.' :: x.itemRef ++ '.' :: x.serial", "sgtin96", "0614141.812345.6789"),
 "SSCC": ("sscc", 8, "193-197", "210-214", [F, S], [F, S], "sscc96", None, None, "x.companyPref ++ '.' :: x.serial", "sscc96", "0614141.1234567890"),
 "SGLN": ("sgln", 8, "202-204", "232-236", [S, F], [S, F], None, None, "badSerial", "x.companyPref ++ '.' :: x.locationRef ++ '.' :: x.serial", "sgln96", "0614141.12345.400"),
 "GRAI": ("grai", 8, "200-202", "232-236", [S, F], [S, F], None, None, "badSerial", "x.companyPref ++ '.' :: x.assetType ++ '.' :: x.serial", "grai96", "0614141.12345.400"),
 "GIAI": ("giai", 8, "259-261", "297-301", [S, F], [S, F], None, None, "badAssetRef", "x.companyPref ++ '.' :: x.assetRef", "giai96", "0614141.12345400"),
 "GSRN": ("gsrn", 8, "190-194", "206-210", [S, F], [S, F], "gsrn96", 0, None, "x.companyPref ++ '.' :: x.serviceRef", "gsrn96", "0614141.1234567890"),
 "GSRNP": ("gsrnp", 8, "190-194", "208-212", [S, F], [S, F], "gsrnp96", 0, None, "x.companyPref ++ '.' :: x.serviceRef", "gsrnp96", "0614141.1234567890"),
 "GDTI": ("gdti", 8, "202-206", "237-241", [S, F], [S, F], None, None, "badSerial", "x.companyPref ++ '.' :: x.docType ++ '.' :: x.serial", "gdti96", "0614141.12345.400"),
 "CPI": ("cpi", 8, "260-262", "293-297", [S, F], [S, F], None, None, "badSerial", "x.companyPref ++ '.' :: x.cpRef ++ '.' :: x.serial", "cpi96", "0614141.123456.123456789"),
 "SGCN": ("sgcn", 8, "198-202", "215-219", [F, S], [F, S], "sgcn96", None, None, "x.companyPref ++ '.' :: x.couponRef ++ '.' :: x.serial", "sgcn96", "4012345.67890.04711"),
 "USDOD": ("usdod", 16, "80-84", "97-101", [F, S], [F, S], "usdod96", None, None, "x.cage ++ '.' :: x.serial", "usdod96", "2S194.12345678901"),
 "ADI": ("adi", 64, "137-141", "153-157", [F, S], [F, S], "adiVar", None, None, "x.cage ++ '.' :: x.partNumber ++ '.' :: x.serial", "adiVar", "35962.PQ7VZ4.M37GXB92"),
 "ITIP": ("itip", 8, "201-203", "233-237", [S, F], [F, S], None, None, "badSerial", "x.companyPref ++ '.' :: x.itemRef ++ '.' :: x.piece ++ '.' :: x.total ++ '.' :: x.serial", "itip110", "4012345.012345.01.02.987"),
}


def par(which, ds, df, q=""):
    if which == S:
        return f'⟨py "binary_coding_scheme", ' + (f"some (.coding .{ds})" if ds else "none") + "⟩"
    return f'⟨py "filter_value", ' + (f"some (.filter {df})" if df is not None else "none") + "⟩"


def sig(order, ds, df):
    return "[" + ", ".join(par(o, ds, df) for o in order) + "]"


m = '''/-
The output methods as Python calls: positional arguments, keyword arguments, default values.
Simplification: the arguments are members of the enumerations of the class that is called (coding schemes and filter values, in either
position); anything else is not modelled.
Generated by tools/gen_calls.py.
-/
import Verif.Py.Call
import Verif.Model.Parsers

namespace Epc

/-- An argument: a member of the class's `BinaryCodingScheme`, or one of its filter values. -/
inductive Arg (κ : Type) (n : Nat) where
  | coding (c : κ)
  | filter (f : Fin n)
  deriving DecidableEq, Repr

/-- `.value` of an argument. -/
def Arg.value {κ : Type} {n : Nat} (value : κ → Str) : Arg κ n → Str
  | .coding c => value c
  | .filter f => filterStr f

/-- The body of a `tag_uri` with the parameters `binary_coding_scheme` and `filter_value`: `check` is the class's test of the serial, which
compares `binary_coding_scheme` with the coding schemes, so it is not made if that is a filter value; e.g. /repo/epcpy/epc_schemes/sgtin.py:282-294 -/
def tagUriBody {κ : Type} {n : Nat} (check : κ → Except Err Bool) (value : κ → Str) (rest : Str) (scheme filter : Arg κ n) : Except Err Str := do
  let bad ← match scheme with
    | .coding c => check c
    | .filter _ => .ok false
  if bad then .error .convert
  else return tagUriPrefix ++ scheme.value value ++ ':' :: filter.value value ++ '.' :: rest

/-- The body of a `binary` with the parameters `binary_coding_scheme` and `filter_value`.  The first line looks the name of the coding scheme up
among the headers, where no filter value is found (KeyError); the next converts the filter value, and the value of a coding scheme is no
number (ValueError); e.g. /repo/epcpy/epc_schemes/sgtin.py:312-313 -/
def binaryBody {κ : Type} {n : Nat} (binary : κ → Fin n → Except Err Str) : Arg κ n → Arg κ n → Except Err Str
  | .coding c, .filter f => binary c f
  | .coding _, .coding _ => .error .value
  | .filter _, _ => .error .key

/-- `hex(*args, **kwargs)`: `self.binary(**kwargs)`, the positional arguments are dropped.  /repo/epcpy/epc_schemes/base_scheme.py:106-117 -/
def hexCallOf {α : Type} (binaryCall : List α → List (Str × α) → Except Err Str) (_args : List α) (kwargs : List (Str × α)) : Except Err Str :=
  hexOf (binaryCall [] kwargs)

/-- `base64(*args, **kwargs)`: `self.hex(**kwargs)`.  /repo/epcpy/epc_schemes/base_scheme.py:119-127 -/
def base64CallOf {α : Type} (binaryCall : List α → List (Str × α) → Except Err Str) (_args : List α) (kwargs : List (Str × α)) : Except Err Str := do
  let hex ← hexCallOf binaryCall [] kwargs
  hexToBase64 hex
'''
for C, (fl, n, lt, lb, ot, ob, ds, df, chk, rest, _, _) in X.items():
    A = f"Arg Coding {n}"
    check = f"x.{chk}" if chk else "(fun _ => .ok false)"

    def body(order, fn):
        i = order.index(S)
        return f"let args ← bindArgs {fn} pos kw\n  match args with\n  | [a, b] => "
    ta, tb = ("a", "b") if ot[0] == S else ("b", "a")
    ba, bb = ("a", "b") if ob[0] == S else ("b", "a")
    m += f'''
namespace {C}

/-- The parameters of `{C}.tag_uri`.  /repo/epcpy/epc_schemes/{fl}.py:{lt} -/
def tagUriParams : List (Param ({A})) := {sig(ot, ds, df)}

/-- The parameters of `{C}.binary`.  /repo/epcpy/epc_schemes/{fl}.py:{lb} -/
def binaryParams : List (Param ({A})) := {sig(ob, ds, df)}

/-- `{C}.tag_uri(*pos, **kw)`. -/
def tagUriCall (x : {C}) (pos : List ({A})) (kw : List (Str × {A})) : Except Err Str := do
  let args ← bindArgs tagUriParams pos kw
  match args with
  | [a, b] => tagUriBody {check} Coding.value ({rest}) {ta} {tb}
  | _ => .error .type

/-- `{C}.binary(*pos, **kw)`. -/
def binaryCall (x : {C}) (pos : List ({A})) (kw : List (Str × {A})) : Except Err Str := do
  let args ← bindArgs binaryParams pos kw
  match args with
  | [a, b] => binaryBody x.binary {ba} {bb}
  | _ => .error .type

/-- `{C}.hex(*pos, **kw)`.  /repo/epcpy/epc_schemes/base_scheme.py:106-117 -/
def hexCall (x : {C}) (pos : List ({A})) (kw : List (Str × {A})) : Except Err Str := hexCallOf x.binaryCall pos kw

/-- `{C}.base64(*pos, **kw)`.  /repo/epcpy/epc_schemes/base_scheme.py:119-127 -/
def base64Call (x : {C}) (pos : List ({A})) (kw : List (Str × {A})) : Except Err Str := base64CallOf x.binaryCall pos kw

end {C}
'''
m += '''
namespace GID

/-- The parameter of `GID.tag_uri`.  /repo/epcpy/epc_schemes/gid.py:65-68 -/
def tagUriParams : List (Param Coding) := [⟨py "binary_coding_scheme", some .gid96⟩]

/-- The parameter of `GID.binary`.  /repo/epcpy/epc_schemes/gid.py:80-83 -/
def binaryParams : List (Param Coding) := [⟨py "binary_coding_scheme", some .gid96⟩]

/-- `GID.tag_uri(*pos, **kw)`. -/
def tagUriCall (x : GID) (pos : List Coding) (kw : List (Str × Coding)) : Except Err Str := do
  let args ← bindArgs tagUriParams pos kw
  match args with
  | [a] => x.tagUri a
  | _ => .error .type

/-- `GID.binary(*pos, **kw)`. -/
def binaryCall (x : GID) (pos : List Coding) (kw : List (Str × Coding)) : Except Err Str := do
  let args ← bindArgs binaryParams pos kw
  match args with
  | [a] => x.binary a
  | _ => .error .type

/-- `GID.hex(*pos, **kw)`.  /repo/epcpy/epc_schemes/base_scheme.py:106-117 -/
def hexCall (x : GID) (pos : List Coding) (kw : List (Str × Coding)) : Except Err Str := hexCallOf x.binaryCall pos kw

/-- `GID.base64(*pos, **kw)`.  /repo/epcpy/epc_schemes/base_scheme.py:119-127 -/
def base64Call (x : GID) (pos : List Coding) (kw : List (Str × Coding)) : Except Err Str := base64CallOf x.binaryCall pos kw

end GID
end Epc
'''
open(os.path.join(ROOT, "lean/Verif/Model/Calls.lean"), "w").write(m)

p = '''/-
C76, C77: the arguments of `tag_uri`, `binary`, `hex` and `base64`, passed by position, by name or left to the default value.

`Passes ps pos kw vs` (`Spec/Call`): the call `f(*pos, **kw)` gives the parameters `ps` the values `vs`.
Generated by tools/gen_calls.py.
-/
import Verif.Lemmas.Call

namespace Epc
open Spec

'''


def ps(order, ds, df):
    o = []
    for w in order:
        if w == S:
            o.append('(py "binary_coding_scheme", ' + (f"some (.coding .{ds})" if ds else "none") + ")")
        else:
            o.append('(py "filter_value", ' + (f"some (.filter {df})" if df is not None else "none") + ")")
    return "[" + ", ".join(o) + "]"


def vals(order):
    return "[" + ", ".join(".coding cs" if w == S else ".filter f" for w in order) + "]"


def pure(fl, body):
    return f"urn:epc:id:{fl}:{body}"


p += "/-! ### C76: `hex` and `base64` drop positional arguments -/\n\n"
for C, (fl, n, lt, lb, ot, ob, ds, df, chk, rest, c0, body) in X.items():
    A = f"Arg {C}.Coding {n}"
    order = "[" + ", ".join(f".coding .{c0}" if w == S else ".filter 3" for w in ob) + "]"
    silent = df is not None
    p += f'''theorem C76_{fl}_claim_false : ¬ ∀ (x : {C}) (pos : List ({A})) (kw : List (Str × {A})),
    x.hexCall pos kw = hexOf (x.binaryCall pos kw) ∧ x.base64Call pos kw = base64Of (x.binaryCall pos kw) := by
  intro h
  cases e : {C}.new (py "{pure(fl, body)}") with
  | error _ =>
    have hx : ({C}.new (py "{pure(fl, body)}")).toBool = true := by decide +kernel
    rw [e] at hx; exact Bool.noConfusion hx
  | ok x =>
    have hx : (({C}.new (py "{pure(fl, body)}")).toOption.map fun x => decide (x.hexCall {order} [] = hexOf (x.binaryCall {order} []))) = some false := by
      decide +kernel
    rw [e] at hx
    have hx : decide (x.hexCall {order} [] = hexOf (x.binaryCall {order} [])) = false := Option.some.inj hx
    exact absurd (h x {order} []).1 (of_decide_eq_false hx)

'''
    if silent:
        p += f'''/-- `{C}.hex` and `{C}.base64` even answer, for the default filter value instead of the one they were given. -/
theorem C76_{fl}_silent (x : {C}) (f : Fin {n}) :
    x.hexCall [.coding .{c0}, .filter f] [] = x.hex .{c0} 0 ∧ x.base64Call [.coding .{c0}, .filter f] [] = x.base64 .{c0} 0 := ⟨rfl, rfl⟩

'''
    p += f'''/-- Whatever the positional arguments are, the keyword arguments decide. -/
theorem C76_{fl}_partial (x : {C}) (pos : List ({A})) (kw : List (Str × {A})) :
    (∀ cs f, Passes {ps(ob, ds, df)} [] kw {vals(ob)} →
      x.hexCall pos kw = x.hex cs f ∧ x.base64Call pos kw = x.base64 cs f) ∧
    ((¬ ∃ vs, Passes (α := {A}) {ps(ob, ds, df)} [] kw vs) →
      x.hexCall pos kw = .error .type ∧ x.base64Call pos kw = .error .type) := by
  constructor
  · intro cs f h
    have hb : x.binaryCall [] kw = x.binary cs f := by
      unfold {C}.binaryCall
      rw [(bindArgs_iff (ps := {C}.binaryParams) (by decide)).2 h, ok_bind]
      rfl
    have hh : x.hexCall pos kw = x.hex cs f := by
      unfold {C}.hexCall hexCallOf
      rw [hb]
      rfl
    refine ⟨hh, ?_⟩
    unfold {C}.base64Call base64CallOf hexCallOf
    rw [hb]
    rfl
  · intro h
    have hb : x.binaryCall [] kw = .error .type := by
      unfold {C}.binaryCall
      rw [bindArgs_none (ps := {C}.binaryParams) (by decide) h, error_bind]
    constructor
    · unfold {C}.hexCall hexCallOf
      rw [hb]
      rfl
    · unfold {C}.base64Call base64CallOf hexCallOf
      rw [hb]
      rfl

'''
p += '''theorem C76_gid_claim_false : ¬ ∀ (x : GID) (pos : List GID.Coding) (kw : List (Str × GID.Coding)),
    x.hexCall pos kw = hexOf (x.binaryCall pos kw) ∧ x.base64Call pos kw = base64Of (x.binaryCall pos kw) := by
  intro h
  cases e : GID.new (py "urn:epc:id:gid:31415.271828.1414") with
  | error _ =>
    have hx : (GID.new (py "urn:epc:id:gid:31415.271828.1414")).toBool = true := by decide +kernel
    rw [e] at hx; exact Bool.noConfusion hx
  | ok x =>
    have hx : ((GID.new (py "urn:epc:id:gid:31415.271828.1414")).toOption.map fun x => decide (x.hexCall [.gid96, .gid96] [] = hexOf (x.binaryCall [.gid96, .gid96] []))) = some false := by
      decide +kernel
    rw [e] at hx
    have hx : decide (x.hexCall [.gid96, .gid96] [] = hexOf (x.binaryCall [.gid96, .gid96] [])) = false := Option.some.inj hx
    exact absurd (h x [.gid96, .gid96] []).1 (of_decide_eq_false hx)

theorem C76_gid_partial (x : GID) (pos : List GID.Coding) (kw : List (Str × GID.Coding)) :
    (∀ cs, Passes [(py "binary_coding_scheme", some .gid96)] [] kw [cs] →
      x.hexCall pos kw = x.hex cs ∧ x.base64Call pos kw = x.base64 cs) ∧
    ((¬ ∃ vs, Passes [(py "binary_coding_scheme", some GID.Coding.gid96)] [] kw vs) →
      x.hexCall pos kw = .error .type ∧ x.base64Call pos kw = .error .type) := by
  constructor
  · intro cs h
    have hb : x.binaryCall [] kw = x.binary cs := by
      unfold GID.binaryCall
      rw [(bindArgs_iff (ps := GID.binaryParams) (by decide)).2 h, ok_bind]
    have hh : x.hexCall pos kw = x.hex cs := by
      unfold GID.hexCall hexCallOf
      rw [hb]
      rfl
    refine ⟨hh, ?_⟩
    unfold GID.base64Call base64CallOf hexCallOf
    rw [hb]
    rfl
  · intro h
    have hb : x.binaryCall [] kw = .error .type := by
      unfold GID.binaryCall
      rw [bindArgs_none (ps := GID.binaryParams) (by decide) h, error_bind]
    constructor
    · unfold GID.hexCall hexCallOf
      rw [hb]
      rfl
    · unfold GID.base64Call base64CallOf hexCallOf
      rw [hb]
      rfl

'''
p += "/-! ### C77: `tag_uri` and `binary` take the same arguments in the same order -/\n\n"
for C, (fl, n, lt, lb, ot, ob, ds, df, chk, rest, c0, body) in X.items():
    A = f"Arg {C}.Coding {n}"
    tag = f'''    unfold {C}.tagUriCall
    rw [(bindArgs_iff (ps := {C}.tagUriParams) (by decide)).2 h, ok_bind]
    dsimp only
    rw [tagUriBody_typed]
    unfold {C}.tagUri
'''
    if chk:
        tag += f"    refine congrArg _ (funext fun bad => ?_)\n    cases bad <;> simp [pure_ok]\n"
    else:
        tag += "    simp [ok_bind]\n"
    binr = f'''    unfold {C}.binaryCall
    rw [(bindArgs_iff (ps := {C}.binaryParams) (by decide)).2 h, ok_bind]
    rfl
'''
    if ot == ob:
        p += f'''theorem C77_{fl} (x : {C}) (pos : List ({A})) (kw : List (Str × {A})) :
    (∀ cs f, Passes {ps(ot, ds, df)} pos kw {vals(ot)} →
      x.tagUriCall pos kw = x.tagUri cs f ∧ x.binaryCall pos kw = x.binary cs f) ∧
    ((¬ ∃ vs, Passes (α := {A}) {ps(ot, ds, df)} pos kw vs) →
      x.tagUriCall pos kw = .error .type ∧ x.binaryCall pos kw = .error .type) := by
  refine ⟨fun cs f h => ⟨?_, ?_⟩, fun h => ⟨?_, ?_⟩⟩
  · {tag.strip()}
  · {binr.strip()}
  · unfold {C}.tagUriCall
    rw [bindArgs_none (ps := {C}.tagUriParams) (by decide) h, error_bind]
  · unfold {C}.binaryCall
    rw [bindArgs_none (ps := {C}.binaryParams) (by decide) h, error_bind]

'''
    else:
        p += f'''/-- `tag_uri(scheme, filter)` is right, `binary(scheme, filter)` raises KeyError. -/
theorem C77_{fl}_claim_false : ¬ ∀ (x : {C}) (pos : List ({A})) (kw : List (Str × {A})) cs f, Passes {ps(ot, ds, df)} pos kw {vals(ot)} →
    x.tagUriCall pos kw = x.tagUri cs f ∧ x.binaryCall pos kw = x.binary cs f := by
  intro h
  cases e : {C}.new (py "{pure(fl, body)}") with
  | error _ =>
    have hx : ({C}.new (py "{pure(fl, body)}")).toBool = true := by decide +kernel
    rw [e] at hx; exact Bool.noConfusion hx
  | ok x =>
    have hx : (({C}.new (py "{pure(fl, body)}")).toOption.map fun x => decide (x.binaryCall [.coding .{c0}, .filter 3] [] = x.binary .{c0} 3)) = some false := by
      decide +kernel
    rw [e] at hx
    have hx : decide (x.binaryCall [.coding .{c0}, .filter 3] [] = x.binary .{c0} 3) = false := Option.some.inj hx
    refine absurd (h x [.coding .{c0}, .filter 3] [] .{c0} 3 ?_).2 (of_decide_eq_false hx)
    exact (bindArgs_iff (ps := {C}.tagUriParams) (by decide)).1 rfl

/-- Each takes its own order; without positional arguments the two agree. -/
theorem C77_{fl}_partial (x : {C}) (pos : List ({A})) (kw : List (Str × {A})) :
    (∀ cs f, Passes {ps(ot, ds, df)} pos kw {vals(ot)} → x.tagUriCall pos kw = x.tagUri cs f) ∧
    (∀ cs f, Passes {ps(ob, ds, df)} pos kw {vals(ob)} → x.binaryCall pos kw = x.binary cs f) ∧
    (∀ cs f, Passes {ps(ot, ds, df)} [] kw {vals(ot)} ↔ Passes {ps(ob, ds, df)} [] kw {vals(ob)}) ∧
    ((¬ ∃ vs, Passes (α := {A}) {ps(ot, ds, df)} pos kw vs) → x.tagUriCall pos kw = .error .type) ∧
    ((¬ ∃ vs, Passes (α := {A}) {ps(ob, ds, df)} pos kw vs) → x.binaryCall pos kw = .error .type) := by
  refine ⟨fun cs f h => ?_, fun cs f h => ?_, fun cs f => ?_, fun h => ?_, fun h => ?_⟩
  · {tag.strip()}
  · {binr.strip()}
  · exact passes_swap
  · unfold {C}.tagUriCall
    rw [bindArgs_none (ps := {C}.tagUriParams) (by decide) h, error_bind]
  · unfold {C}.binaryCall
    rw [bindArgs_none (ps := {C}.binaryParams) (by decide) h, error_bind]

'''
p += '''theorem C77_gid (x : GID) (pos : List GID.Coding) (kw : List (Str × GID.Coding)) :
    (∀ cs, Passes [(py "binary_coding_scheme", some .gid96)] pos kw [cs] →
      x.tagUriCall pos kw = x.tagUri cs ∧ x.binaryCall pos kw = x.binary cs) ∧
    ((¬ ∃ vs, Passes [(py "binary_coding_scheme", some GID.Coding.gid96)] pos kw vs) →
      x.tagUriCall pos kw = .error .type ∧ x.binaryCall pos kw = .error .type) := by
  refine ⟨fun cs h => ⟨?_, ?_⟩, fun h => ⟨?_, ?_⟩⟩
  · unfold GID.tagUriCall
    rw [(bindArgs_iff (ps := GID.tagUriParams) (by decide)).2 h, ok_bind]
  · unfold GID.binaryCall
    rw [(bindArgs_iff (ps := GID.binaryParams) (by decide)).2 h, ok_bind]
  · unfold GID.tagUriCall
    rw [bindArgs_none (ps := GID.tagUriParams) (by decide) h, error_bind]
  · unfold GID.binaryCall
    rw [bindArgs_none (ps := GID.binaryParams) (by decide) h, error_bind]

/-! ### Non-vacuity -/

/-- `f(SGTIN_96, filter_value=POS_ITEM)` -/
example : Passes [(py "binary_coding_scheme", none), (py "filter_value", none)] [Arg.coding SGTIN.Coding.sgtin96] [(py "filter_value", .filter (1 : Fin 8))]
    [.coding .sgtin96, .filter 1] := (bindArgs_iff (ps := SGTIN.binaryParams) (by decide)).1 rfl

/-- `f(filter_value=f, binary_coding_scheme=cs)`: the order of keyword arguments does not matter. -/
example (cs : SGTIN.Coding) (f : Fin 8) : Passes [(py "binary_coding_scheme", none), (py "filter_value", none)] []
    [(py "filter_value", Arg.filter f), (py "binary_coding_scheme", .coding cs)] [.coding cs, .filter f] :=
  (bindArgs_iff (ps := SGTIN.binaryParams) (by decide)).1 rfl

/-- `f(FILTER)`: the coding scheme of SSCC has a default value. -/
example : Passes [(py "filter_value", none), (py "binary_coding_scheme", some (.coding .sscc96))] [Arg.filter (3 : Fin 8)] []
    [.filter 3, .coding SSCC.Coding.sscc96] := (bindArgs_iff (ps := SSCC.binaryParams) (by decide)).1 rfl

/-- `f(SGTIN_96, binary_coding_scheme=SGTIN_96)`, a parameter with two values, and `f(SGTIN_96)`, a parameter without one. -/
example : (¬ ∃ vs, Passes (α := Arg SGTIN.Coding 8) [(py "binary_coding_scheme", none), (py "filter_value", none)] [.coding .sgtin96] [(py "binary_coding_scheme", .coding .sgtin96)] vs) ∧
    (¬ ∃ vs, Passes (α := Arg SGTIN.Coding 8) [(py "binary_coding_scheme", none), (py "filter_value", none)] [.coding .sgtin96] [] vs) := by
  constructor <;>
  · rintro ⟨vs, h⟩
    have h := (bindArgs_iff (ps := SGTIN.binaryParams) (by decide)).2 h
    cases h

end Epc
'''
open(os.path.join(ROOT, "lean/Verif/Props/C76.lean"), "w").write(p)
