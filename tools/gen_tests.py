"""Turn the test vectors of /repo/tests (read as text, parsed with `ast`) into Lean `example`s about the model.

They are tests of the fidelity of the model, not proofs of properties.
Output: /verif/lean/Verif/Tests/<Scheme>.lean and Parsers.lean
"""
import ast, glob, os, re

REPO = "/repo"
OUT = "/verif/lean/Verif/Tests"
KEYED = "GDTI GIAI GINC GRAI GSIN GSRN GSRNP LGTIN PGLN SGCN SGLN SGTIN SSCC".split()

filters = {}
for f in glob.glob(REPO + "/epcpy/epc_schemes/*.py"):
    for n in ast.parse(open(f).read()).body:
        if isinstance(n, ast.ClassDef) and n.name.endswith("FilterValue"):
            for st in n.body:
                if isinstance(st, ast.Assign):
                    filters[n.name + "." + st.targets[0].id] = int(st.value.value)

def ev(n):
    """Evaluate the literal part of the test data; attribute accesses stay dotted names."""
    if isinstance(n, ast.Constant): return n.value
    if isinstance(n, ast.List): return [ev(x) for x in n.elts]
    if isinstance(n, ast.Dict): return {ev(k): ev(v) for k, v in zip(n.keys, n.values)}
    if isinstance(n, (ast.Attribute, ast.Name)): return ("sym", ast.unparse(n))
    raise Exception(ast.dump(n))

def lit(s):
    return 'py "' + s.replace("\\", "\\\\").replace('"', '\\"') + '"'

def coding(scheme, kw):
    if "binary_coding_scheme" in kw:
        m = kw["binary_coding_scheme"][1].split(".")[-1]
    else:
        m = {"GID": "GID_96", "SSCC": "SSCC_96", "SGCN": "SGCN_96", "GSRN": "GSRN_96", "GSRNP": "GSRNP_96",
             "USDOD": "USDOD_96", "ADI": "ADI_VAR"}[scheme]
    a, b = m.lower().split("_")
    return "." + a + b.capitalize()

def args(scheme, kw):
    c = coding(scheme, kw)
    return c if scheme == "GID" else f"{c} {filters[kw['filter_value'][1]]}"

def gt(kw):
    return "." + kw["gtin_type"][1].split(".")[-1].lower() if "gtin_type" in kw else None

def ex(name, lhs, rhs):
    return f"-- {name}\nexample : {lhs} = {rhs} := by decide +kernel\n"

def key(scheme, kw):
    if scheme in ("SGTIN", "LGTIN"):
        return f"fun x => x.gs1Key {gt(kw) or '.gtin14'}"
    return "fun x => .ok x.gs1Key"

mods = []
for f in sorted(glob.glob(REPO + "/tests/epc_schemes/test_*.py")):
    if f.endswith("base_scheme.py"): continue
    out, sch = [], None
    for cls in ast.parse(open(f).read()).body:
        if not isinstance(cls, ast.ClassDef): continue
        kws = {k.arg: k.value for k in cls.keywords}
        if "metaclass" not in kws: print("skipped", f, cls.name); continue
        kind, s = kws["metaclass"].id, kws["scheme"].id
        sch = s
        valid, invalid = ev(kws["valid_data"]), ev(kws["invalid_data"])
        new = lambda e: f"{s}.new ({lit(e['uri'])})"
        uri = lambda e: f".ok ({lit(e['uri'])})"
        if kind == "TestEPCSchemeInitMeta":
            for e in valid: out.append(ex(e["name"], f"({new(e)}).map (·.epcUri)", uri(e)))
            for e in invalid: out.append(ex(e["name"], new(e), ".error .convert"))
        elif kind == "TestGS1ElementMeta":
            for e in valid:
                kw = e.get("kwargs", {})
                if s in KEYED:
                    out.append(ex(e["name"] + " (key)", f"({new(e)}).bind ({key(s, kw)})", f".ok ({lit(e['gs1_key'])})"))
                out.append(ex(e["name"] + " (element string)", f"({new(e)}).bind (fun x => x.gs1ElementString)",
                              f".ok ({lit(e['gs1_element_string'])})"))
                out.append(ex(e["name"] + " (from element string)",
                              f"({s}.fromGs1ElementString ({lit(e['gs1_element_string'])}) {e['company_prefix_length']}).map (·.epcUri)", uri(e)))
            for e in invalid:
                out.append(ex(e["name"], f"({new(e)}).bind ({key(s, e.get('kwargs', {}))})", ".error .convert"))
        elif kind == "TestTagEncodableMeta":
            for e in valid:
                kw = e.get("kwargs", {})
                out.append(ex(e["name"] + " (tag URI)", f"({new(e)}).bind (fun x => x.tagUri {args(s, kw)})", f".ok ({lit(e['tag_uri'])})"))
                out.append(ex(e["name"] + " (from tag URI)", f"({s}.fromTagUri ({lit(e['tag_uri'])})).map (·.epcUri)", uri(e)))
                out.append(ex(e["name"] + " (hex)", f"({new(e)}).bind (fun x => x.hex {args(s, kw)})", f".ok ({lit(e['hex'])})"))
                out.append(ex(e["name"] + " (from hex)", f"({s}.fromHex ({lit(e['hex'])})).map (·.epcUri)", uri(e)))
                out.append(ex(e["name"] + " (from base64)", f"((hexToBase64 ({lit(e['hex'])})).bind {s}.fromBase64).map (·.epcUri)", uri(e)))
            for e in invalid:
                kw = e.get("kwargs", {})
                out.append(ex(e["name"], f"({new(e)}).bind (fun x => x.tagUri {args(s, kw)})", ".error .convert"))
        else:
            print("unknown", kind)
    m = sch.capitalize()
    mods.append(m)
    open(f"{OUT}/{m}.lean", "w").write(
        f"/-\nTests (not proofs): the vectors of {f} evaluated in the model.  Generated by tools/gen_tests.py.\n-/\n"
        f"import Verif.Model.{m}\n\nnamespace Epc.Tests\n\n" + "\n".join(out) + "\nend Epc.Tests\n")

# parsers
data = {}
for n in ast.parse(open(REPO + "/tests/utils/test_data.py").read()).body:
    if isinstance(n, ast.Assign): data[n.targets[0].id] = ev(n.value)
out = []
for e in data["VALID_TEST_DATA"]:
    s = e["scheme"][1]; kw = e.get("kwargs", {}); u = lit(e["uri"])
    t = f"(some {gt(kw)})" if gt(kw) else "none"
    obj = f"({s}.new ({u})).map Scheme.{s.lower()}"
    nm = e["uri"]
    out.append(ex(nm, f"epcPureIdentityToScheme ({u})", obj))
    out.append(ex(nm, f"epcPureIdentityToGs1Element ({u})", obj if e["gs1_element"] else ".error .convert"))
    out.append(ex(nm, f"epcPureIdentityToGs1Keyed ({u})", obj if e["gs1_keyed"] else ".error .convert"))
    out.append(ex(nm, f"epcPureIdentityToTagEncodable ({u})", obj if e["tag_encodable"] else ".error .convert"))
    if e["gs1_element"]:
        out.append(ex(nm, f"epcPureIdentityToGs1ElementString ({u})", f".ok ({lit(e['gs1_element_string'])})"))
    if e["gs1_keyed"]:
        k = f".ok ({lit(e['gs1_key'])})"
        out.append(ex(nm, f"epcPureIdentityToGs1Key ({u}) {t}", k))
        out.append(ex(nm, f"getGs1Key ({u}) none {t}", k))
        out.append(ex(nm, f"getGs1Key ({lit(e['gs1_element_string'])}) (some {e['company_prefix_length']}) {t}", k))
    if e["tag_encodable"]:
        out.append(ex(nm, f"tagUriToTagEncodable ({lit(e['tag_uri'])})", obj))
        out.append(ex(nm, f"hexToTagEncodable ({lit(e['hex'])})", obj))
        out.append(ex(nm, f"binaryToTagEncodable ({lit(e['binary'])})", obj))
        if e["gs1_keyed"]:
            for r in ("tag_uri", "hex", "binary"):
                out.append(ex(nm, f"getGs1Key ({lit(e[r])}) none {t}", k))
for e in data["VALID_ID_PATTERNS"]:
    kw = e.get("kwargs", {}); t = f"(some {gt(kw)})" if gt(kw) else "none"
    out.append(ex(e["idpat"], f"getGs1Key ({lit(e['idpat'])}) none {t}", f".ok ({lit(e['gs1_key'])})"))
for e in data["INVALID_ID_PATTERNS"]:
    kw = e.get("kwargs", {}); t = f"(some {gt(kw)})" if gt(kw) else "none"
    out.append(ex(e["idpat"], f"getGs1Key ({lit(e['idpat'])}) none {t}", ".error .convert"))
for fn, a in [("epcPureIdentityToGs1Element", "urn:epc:id:adi:W81X9C.3KL984PX1.2WMA-52"),
              ("epcPureIdentityToGs1ElementString", "urn:epc:id:bic:CSQJ3054381"),
              ("epcPureIdentityToGs1Keyed", "urn:epc:id:upui:1234567.089456.51qIgY)%3C%26Jp3*j7'SDB"),
              ("epcPureIdentityToScheme", "urn:epc:id:dod:2S194.68719476735"),
              ("epcPureIdentityToTagEncodable", "urn:epc:id:pgln:0123456789.01"),
              ("hexToTagEncodable", "3AFFFFFFFFFFFFFFFFFFFFFF"),
              ("tagUriToTagEncodable", "urn:epc:tag:imovn-96:0.9176187")]:
    out.append(ex("invalid " + a, f"{fn} ({lit(a)})", ".error .convert"))
out.append(ex("invalid key", f"epcPureIdentityToGs1Key ({lit('urn:epc:id:itip:012345678901.0.00.00.ABCDEFGHIJKLMNOP%2FRST')}) none", ".error .convert"))
open(f"{OUT}/Parsers.lean", "w").write(
    "/-\nTests (not proofs): the vectors of /repo/tests/utils evaluated in the model.  Generated by tools/gen_tests.py.\n-/\n"
    "import Verif.Model.Parsers\n\nnamespace Epc.Tests\n\n" + "\n".join(out) + "\nend Epc.Tests\n")
