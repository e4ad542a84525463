#!/usr/bin/env python3
"""Generate lean/Verif/Props/C20.lean .. C26.lean (binary, hexadecimal and base64 encodings)."""
import os
ROOT = os.path.dirname(os.path.dirname(os.path.abspath(__file__)))

# class, coding, name, size (0: variable), header, Fin n, filter width, kind, example body, canonical witness (raw text)
R = [
 ("SGTIN", "sgtin96", "SGTIN-96", 96, "00110000", 8, 3, "num", "9521141.012345.4711", None),
 ("SGTIN", "sgtin198", "SGTIN-198", 198, "00110110", 8, 3, "str", "9521141.012345.32a%2Fb", ("32a%2Fb", "32a/b")),
 ("SSCC", "sscc96", "SSCC-96", 96, "00110001", 8, 3, "all", "9521141.1234567890", None),
 ("SGLN", "sgln96", "SGLN-96", 96, "00110010", 8, 3, "num", "9521141.12345.4711", None),
 ("SGLN", "sgln195", "SGLN-195", 195, "00111001", 8, 3, "str", "9521141.12345.32a%2Fb", ("32a%2Fb", "32a/b")),
 ("GRAI", "grai96", "GRAI-96", 96, "00110011", 8, 3, "num", "9521141.12345.4711", None),
 ("GRAI", "grai170", "GRAI-170", 170, "00110111", 8, 3, "str", "9521141.12345.32a%2Fb", ("32a%2Fb", "32a/b")),
 ("GIAI", "giai96", "GIAI-96", 96, "00110100", 8, 3, "num", "9521141.4711", None),
 ("GIAI", "giai202", "GIAI-202", 202, "00111000", 8, 3, "str", "9521141.32a%2Fb", ("32a%2Fb", "32a/b")),
 ("GSRN", "gsrn96", "GSRN-96", 96, "00101101", 8, 3, "all", "9521141.1234567890", None),
 ("GSRNP", "gsrnp96", "GSRNP-96", 96, "00101110", 8, 3, "all", "9521141.1234567890", None),
 ("GDTI", "gdti96", "GDTI-96", 96, "00101100", 8, 3, "num", "9521141.12345.4711", None),
 ("GDTI", "gdti174", "GDTI-174", 174, "00111110", 8, 3, "str", "9521141.12345.32a%2Fb", ("32a%2Fb", "32a/b")),
 ("CPI", "cpi96", "CPI-96", 96, "00111100", 8, 3, "num", "9521141.98765.12345", None),
 ("CPI", "cpiVar", "CPI-var", 0, "00111101", 8, 3, "all", "9521141.5PQ7%2FZ43.12345", None),
 ("SGCN", "sgcn96", "SGCN-96", 96, "00111111", 8, 3, "all", "9521141.67890.04711", None),
 ("ITIP", "itip110", "ITIP-110", 110, "01000000", 8, 3, "num", "9521141.012345.02.04.981", None),
 ("ITIP", "itip212", "ITIP-212", 212, "01000001", 8, 3, "str", "9521141.012345.02.04.32a%2Fb", ("32a%2Fb", "32a/b")),
 ("GID", "gid96", "GID-96", 96, "00110101", 1, 0, "all", "952056.2718.1414", None),
 ("USDOD", "usdod96", "USDOD-96", 96, "00101111", 16, 4, "all", "CAGEY.5678", None),
 ("ADI", "adiVar", "ADI-var", 0, "00111011", 64, 6, "adi", "W81X9C.3KL984PX1.2WMA-52", None),
]
CLS = []
for r in R:
    if r[0] not in CLS:
        CLS.append(r[0])

def info(r, rt):
    """binders and a proof of `∃ rest, rest.length = .. ∧ BinOk ..` ; rt: round trip to the object itself is wanted."""
    C, cs, name, size, hd, fn, w, kind, ex, can = r
    nm = C.lower()
    serial = "assetRef" if C == "GIAI" else "serial"
    b = []
    usht = kind == "num"
    if C == "GIAI" and rt:
        uri = 'py "urn:epc:id:giai:" ++ body'
        b += ["(body : Str)", ]
        b0 = f"(ha : Ascii body) (hc : ':' ∉ body)\n    (hu : GIAI.new (py \"urn:epc:id:giai:\" ++ body) = .ok x)"
        ha = "(ascii_append.2 ⟨by decide, ha⟩)"
    else:
        b0 = f"(ha : Ascii u) (hu : {C}.new u = .ok x)"
        ha = "ha"
        b += ["(u : Str)"]
    if C == "ADI":
        b = ["(u : Str)"]; b0 = "(hu : ADI.new u = .ok x)"
    hy = []
    if C == "ITIP":
        hy.append("(hp : x.piece.length = 2 ∧ number x.piece < 99) (hq : x.total.length = 2 ∧ number x.total < 99)")
    if kind == "num":
        hy.append(f"(ht : x.tagUri .{cs} f = .ok t)")
    if kind == "str":
        hy.append(f"(hs : Canonical x.{serial})")
    if kind == "adi":
        hy.append("(rp : Str) (hr : ∀ c ∈ rp, c ∈ gs39) (hp : x.partNumber = escape39 rp) (hz : ¬ EarlyTerminator rp)")
    if C == "GIAI" and rt:
        if kind == "num":
            pr = f"GIAI.binOk_giai96 {ha} hu (GIAI.normal_of_no_colon hc hu) (GIAI.serial_of_tagUri hu ht)"
        else:
            pr = f"GIAI.binOk_giai202 {ha} hu (GIAI.normal_of_no_colon hc hu) hs"
    elif C == "GIAI":
        pr = "GIAI.avail_giai96 ha hu ht" if kind == "num" else "GIAI.avail_giai202 ha hu hs"
    elif kind == "num":
        pr = f"{C}.avail_{cs} ha hu" + (" hp hq" if C == "ITIP" else "") + " ht"
    elif kind == "str":
        pr = f"{C}.binOk_{cs} ha hu" + (" hp hq" if C == "ITIP" else "") + " hs"
    elif kind == "adi":
        pr = "ADI.binOk_adiVar hu hr hp hz"
    else:
        pr = f"{C}.binOk_{cs} ha hu"
    return b, b0, hy, pr

def binders(r, rt):
    C, cs, name, size, hd, fn, w, kind, ex, can = r
    b, b0, hy, pr = info(r, rt)
    v = " ".join(b).replace("(u : Str)", "(u t : Str)" if kind == "num" else "(u : Str)").replace("(body : Str)", "(body t : Str)" if kind == "num" else "(body : Str)")
    f = "" if C == "GID" else f" (f : Fin {fn})"
    return f"{v} (x : {C}){f} {b0}" + ("\n    " + " ".join(hy) if hy else ""), pr

def binders_any(r):
    """binders without a restriction to ASCII, and the lemma from AvailAny.lean."""
    C, cs, name, size, hd, fn, w, kind, ex, can = r
    serial = "assetRef" if C == "GIAI" else "serial"
    hy = []
    if C == "ITIP":
        hy.append("(hp : x.piece.length = 2 ∧ unumber x.piece < 99) (hq : x.total.length = 2 ∧ unumber x.total < 99)")
    if kind == "num":
        hy.append(f"(ht : x.tagUri .{cs} f = .ok t)")
    if kind == "str":
        hy.append(f"(hs : Canonical x.{serial})")
    f = "" if C == "GID" else f" (f : Fin {fn})"
    v = "(u t : Str)" if kind == "num" else "(u : Str)"
    pr = f"{C}.any_{cs} hu" + (" hp hq" if C == "ITIP" else "") + (" ht" if kind == "num" else " hs" if kind == "str" else "")
    return f"{v} (x : {C}){f} (hu : {C}.new u = .ok x)" + ("\n    " + " ".join(hy) if hy else ""), pr

def fa(C, f="f"):
    return "" if C == "GID" else f" {f}"

def witness(r, bad=False):
    C, cs, name, size, hd, fn, w, kind, ex, can = r
    nm = C.lower()
    u = f'py "urn:epc:id:{nm}:{ex}"'
    s = f"example : Ascii ({u}) ∧ ((do let x ← {C}.new ({u}); x.tagUri .{cs}{'' if C == 'GID' else ' 3'}) : Except Err Str).isOk = true := by decide +kernel\n"
    if can:
        s += f'example : Canonical (py "{can[0]}") := ⟨py "{can[1]}", by decide, by decide, by decide⟩\n'
    if kind == "adi":
        s += 'example : (∀ c ∈ py "3KL984PX1", c ∈ gs39) ∧ escape39 (py "3KL984PX1") = py "3KL984PX1" ∧ ¬ EarlyTerminator (py "3KL984PX1") := by decide +kernel\n'
    return s

def head(pid, doc, imps):
    return "/-\n" + doc + "Generated by tools/gen_bin.py.\n-/\n" + "".join(f"import {i}\n" for i in imps) + "\nnamespace Epc\nopen Spec Re\n"

def write(pid, s):
    open(os.path.join(ROOT, f"lean/Verif/Props/{pid}.lean"), "w").write(s + "\nend Epc\n")

IMPS = ["Verif.Lemmas.Avail", "Verif.Lemmas.Shape"]

# ---------------------------------------------------------------- C20
s = head("C20", '''C20: binary encodings have the size their scheme names.

`bitsNumber` reads a bit string as a number.  Header: the first eight bits; filter value: the three (USDOD: four, ADI: six) bits after
it.  The digits may be of any script.  False for alphanumeric serials that are not in canonical form, and for ITIP with piece or total 99 or not of two digits.
''', IMPS + ["Verif.Lemmas.BinSplit", "Verif.Lemmas.AvailAny"])
for r in R:
    C, cs, name, size, hd, fn, w, kind, ex, can = r
    part = kind == "str" or C == "ITIP"
    hyp = ""
    nm = C.lower()
    if C == "ADI":
        s += f'''
/-- ADI-var: a variable number of six-bit groups behind header and filter value. -/
theorem C20_adi_var (u : Str) (x : ADI) (f : Fin 64) (hu : ADI.new u = .ok x) :
    ∃ b, x.binary .adiVar f = .ok b ∧ Bits b ∧ b.length % 6 = 2 ∧ 68 ≤ b.length ∧ b.take 8 = py "00111011" ∧ bitsNumber ((b.drop 8).take 6) = f := by
  obtain ⟨rp, rs, hrp, hrs, _, ep, es, h1, h2, h3, _, _⟩ := ADI.parts hu
  obtain ⟨cb, c1, c2, _, hb⟩ := ADI.binary_form hu (fun c hc => (hrp c hc).1) hrs ep es
  have hl : (bin 6 f).length = 6 := length_bin (by omega) (by omega)
  have h6 : (py "000000").length = 6 := rfl
  have h8 : (ADI.Coding.header .adiVar).length = 8 := rfl
  have l1 := length_code6 rp
  have l2 := length_code6 rs
  refine ⟨_, hb f, ?_, ?_, ?_, rfl, ?_⟩
  · exact Bits_append.2 ⟨by decide, Bits_append.2 ⟨Bits_bin _ _, Bits_append.2 ⟨c1, Bits_append.2 ⟨Bits_code6 _, Bits_append.2
      ⟨by decide, Bits_append.2 ⟨Bits_code6 _, by decide⟩⟩⟩⟩⟩⟩
  · simp only [List.length_append]; omega
  · simp only [List.length_append]; omega
  · rw [drop_append_eq h8, take_append_eq hl, bitsNumber_bin]
{witness(r).split(chr(10))[0]}
'''
        continue
    bi, pr = binders_any(r)
    filt = f" ∧ bitsNumber ((b.drop 8).take {w}) = f" if w else ""
    sz = f"b.length = {size}" if size else "61 ≤ b.length"
    get = "obtain ⟨y, _, rest, hl, H⟩"
    if w:
        end = f"""  obtain ⟨b, e, h1, h2, h3, h4⟩ := H.shape (by decide) rfl (fun f => length_bin (by omega) (by omega)) f
  exact ⟨b, e, h1, by omega, h3, h4⟩"""
    else:
        end = f"""  exact ⟨_, H.enc_eq 0, Bits_append.2 ⟨by decide, H.bits⟩, by rw [List.length_append, List.length_append, hl]; rfl, rfl⟩"""
    s += f'''
theorem C20_{cs.replace("Var", "_var")}{"_partial" if part else ""} {bi} :
    ∃ b, x.binary .{cs}{fa(C)} = .ok b ∧ Bits b ∧ {sz} ∧ b.take 8 = py "{hd}"{filt} := by
  {get} := {pr}
{end}

{witness(r)}'''
s += '''
/-- The claim without the canonicity hypothesis. -/
def C20_claim : Prop := ∀ (u t : Str) (x : SGTIN) (f : Fin 8), SGTIN.new u = .ok x → x.tagUri .sgtin198 f = .ok t →
  ∃ b, x.binary .sgtin198 f = .ok b ∧ b.length = 198

/-- It is false: for the serial `a%2F%4zz` the tag URI is available but `binary` raises `ValueError`. -/
theorem C20_claim_false : ¬ C20_claim := by
  intro h
  have h1 : ∃ x t, SGTIN.new (py "urn:epc:id:sgtin:9521141.012345.a%2F%4zz") = .ok x ∧ x.tagUri .sgtin198 0 = .ok t ∧
      x.binary .sgtin198 0 = .error .value := by
    refine ⟨_, _, rfl, rfl, by decide +kernel⟩
  obtain ⟨x, t, h1, h2, h3⟩ := h1
  obtain ⟨b, h4, _⟩ := h _ t x 0 h1 h2
  rw [h3] at h4
  cases h4

/-- ITIP: a piece or total of 99 (or more) is refused by `binary` with `ConvertException`, although `tag_uri` returns. -/
theorem C20_itip_99 (u : Str) (x : ITIP) (cs : ITIP.Coding) (f : Fin 8) (hu : ITIP.new u = .ok x)
    (h : 99 ≤ unumber x.piece ∨ 99 ≤ unumber x.total) (b : Str) : x.binary cs f ≠ .ok b := by
  intro hb
  have := ITIP.any_small hu hb
  omega

example : ((do let x ← ITIP.new (py "urn:epc:id:itip:9521141.012345.99.99.981"); x.tagUri .itip110 3) : Except Err Str).isOk = true ∧
    ((do let x ← ITIP.new (py "urn:epc:id:itip:9521141.012345.99.99.981"); x.binary .itip110 3) : Except Err Str) = .error .convert := by decide +kernel
'''
write("C20", s)

# ---------------------------------------------------------------- C21, C22, C23
for pid, doc, sel in [
    ("C21", '''C21: binary round trip of the fixed numeric encodings: `from_binary(x.binary(scheme, f)) == x` whenever `tag_uri` returns.

Objects are compared as records of all attributes.  For SSCC, GSRN, GSRNP, SGCN, GID and USDOD `tag_uri` always returns.  GIAI: asset
references containing a colon are excluded (the claim is false for them); ITIP: piece and total of two digits below 99.
''', lambda r: r[7] in ("num", "all") and r[3]),
    ("C22", '''C22: binary round trip of the alphanumeric encodings, for serials in canonical escaped form.

GIAI: asset references containing a colon are excluded (the claim is false for them); ITIP: piece and total of two digits below 99.
''', lambda r: r[7] == "str")]:
    s = head(pid, doc, IMPS)
    for r in R:
        if not sel(r):
            continue
        C, cs, name, size, hd, fn, w, kind, ex, can = r
        part = C in ("GIAI", "ITIP")
        bi, pr = binders(r, True)
        f0 = "0" if C == "GID" else "f"
        s += f'''
/-- {name}. -/
theorem {pid}_{cs}{"_partial" if part else ""} {bi} :
    ∃ b, x.binary .{cs}{fa(C)} = .ok b ∧ {C}.fromBinary b = .ok x := by
  obtain ⟨rest, _, H⟩ := {pr}
  refine ⟨_, H.enc_eq {f0}, ?_⟩
  have := H.dec_eq {f0} []
  rwa [List.append_nil] at this

{witness(r)}'''
    if pid == "C21":
        s += '''
/-- The claim for GIAI-96 without the hypothesis on colons. -/
def C21_giai_claim : Prop := ∀ (u t : Str) (x : GIAI) (f : Fin 8), Ascii u → GIAI.new u = .ok x → x.tagUri .giai96 f = .ok t →
  ∃ b, x.binary .giai96 f = .ok b ∧ GIAI.fromBinary b = .ok x

/-- It is false: `urn:epc:id:giai:0614141.123:45` is decoded as `urn:epc:id:giai:0614141.123`. -/
theorem C21_giai_claim_false : ¬ C21_giai_claim := by
  intro h
  have h1 : ∃ x t y, GIAI.new (py "urn:epc:id:giai:0614141.123:45") = .ok x ∧ x.tagUri .giai96 0 = .ok t ∧
      x.binary .giai96 0 >>= GIAI.fromBinary = .ok y ∧ x.epcUri ≠ y.epcUri := by
    refine ⟨_, _, ⟨py "urn:epc:id:giai:0614141.123", py "0614141", py "123", py "0614141123"⟩, rfl, rfl, by decide +kernel, by decide +kernel⟩
  obtain ⟨x, t, y, h1, h2, h3, h4⟩ := h1
  obtain ⟨b, h5, h6⟩ := h _ t x 0 (by decide) h1 h2
  rw [h5] at h3
  have h3 : GIAI.fromBinary b = .ok y := h3
  rw [h6] at h3
  injection h3 with h3
  exact h4 (by rw [h3])

/-- The claim for ITIP-110 without the hypotheses on piece and total. -/
def C21_itip_claim : Prop := ∀ (u t : Str) (x : ITIP) (f : Fin 8), Ascii u → ITIP.new u = .ok x → x.tagUri .itip110 f = .ok t →
  ∃ b, x.binary .itip110 f = .ok b ∧ ITIP.fromBinary b = .ok x

/-- It is false: `binary` raises `ConvertException` for piece 99 of 99. -/
theorem C21_itip_claim_false : ¬ C21_itip_claim := by
  intro h
  have h1 : ∃ x t, ITIP.new (py "urn:epc:id:itip:9521141.012345.99.99.981") = .ok x ∧ x.tagUri .itip110 0 = .ok t ∧
      x.binary .itip110 0 = .error .convert := by
    refine ⟨_, _, rfl, rfl, by decide +kernel⟩
  obtain ⟨x, t, h1, h2, h3⟩ := h1
  obtain ⟨b, h4, _⟩ := h _ t x 0 (by decide) h1 h2
  rw [h3] at h4
  cases h4

/-- With piece and total of the wrong lengths, another object comes back: `…​.1.004.981` is decoded as `…​.01.04.981`. -/
theorem C21_itip_lengths_counterexample :
    ((do let x ← ITIP.new (py "urn:epc:id:itip:9521141.012345.1.004.981"); let b ← x.binary .itip110 0; let y ← ITIP.fromBinary b; return y.epcUri) :
      Except Err Str) = .ok (py "urn:epc:id:itip:9521141.012345.01.04.981") := by decide +kernel
'''.replace("…​", "…")
    else:
        s += '''
/-- The claim for GIAI-202 without the hypothesis on colons. -/
def C22_giai_claim : Prop := ∀ (S : Str) (x : GIAI) (f : Fin 8), Canonical S →
  GIAI.new (py "urn:epc:id:giai:9521141." ++ S) = .ok x → ∃ b, x.binary .giai202 f = .ok b ∧ GIAI.fromBinary b = .ok x

/-- It is false: `urn:epc:id:giai:9521141.a:b` is decoded as `urn:epc:id:giai:9521141.a`. -/
theorem C22_giai_claim_false : ¬ C22_giai_claim := by
  intro h
  have h1 : ∃ x y, GIAI.new (py "urn:epc:id:giai:9521141.a:b") = .ok x ∧ x.binary .giai202 0 >>= GIAI.fromBinary = .ok y ∧ x.epcUri ≠ y.epcUri := by
    refine ⟨_, ⟨py "urn:epc:id:giai:9521141.a", py "9521141", py "a", py "9521141a"⟩, rfl, by decide +kernel, by decide +kernel⟩
  obtain ⟨x, y, h1, h3, h4⟩ := h1
  obtain ⟨b, h5, h6⟩ := h (py "a:b") x 0 ⟨py "a:b", by decide, by decide, by decide⟩ h1
  rw [h5] at h3
  have h3 : GIAI.fromBinary b = .ok y := h3
  rw [h6] at h3
  injection h3 with h3
  exact h4 (by rw [h3])

/-- Without canonical form the round trip fails: `%41` comes back as `A`. -/
theorem C22_canonical_counterexample :
    ((do let x ← SGTIN.new (py "urn:epc:id:sgtin:9521141.012345.%41"); let b ← x.binary .sgtin198 0; let y ← SGTIN.fromBinary b; return y.epcUri) :
      Except Err Str) = .ok (py "urn:epc:id:sgtin:9521141.012345.A") := by decide +kernel
'''
    write(pid, s)

s = head("C23", '''C23: binary round trip of the variable-length encodings, also with zero padding (or anything else) behind the binary.

False for ADI-var: `from_binary` looks for the terminator `000000` of the part number at any bit position.  `EarlyTerminator` (see
Spec/Six.lean) says that it finds it too early; the round trip holds exactly when that is not the case.
''', IMPS)
s += f'''
/-- CPI-var. -/
theorem C23_cpi (u : Str) (x : CPI) (f : Fin 8) (k : Nat) (ha : Ascii u) (hu : CPI.new u = .ok x) :
    ∃ b, x.binary .cpiVar f = .ok b ∧ CPI.fromBinary (b ++ List.replicate k '0') = .ok x := by
  obtain ⟨rest, _, H⟩ := CPI.binOk_cpiVar ha hu
  exact ⟨_, H.enc_eq f, H.dec_eq f _⟩

/-- CPI-var, followed by any characters. -/
theorem C23_cpi_any (u tail : Str) (x : CPI) (f : Fin 8) (ha : Ascii u) (hu : CPI.new u = .ok x) :
    ∃ b, x.binary .cpiVar f = .ok b ∧ CPI.fromBinary (b ++ tail) = .ok x := by
  obtain ⟨rest, _, H⟩ := CPI.binOk_cpiVar ha hu
  exact ⟨_, H.enc_eq f, H.dec_eq f _⟩

{witness([r for r in R if r[1] == "cpiVar"][0])}
/-- ADI-var: part number `rp` (unescaped) without an early terminator. -/
theorem C23_adi_partial (u rp : Str) (x : ADI) (f : Fin 64) (k : Nat) (hu : ADI.new u = .ok x) (hr : ∀ c ∈ rp, c ∈ gs39)
    (hp : x.partNumber = escape39 rp) (hz : ¬ EarlyTerminator rp) :
    ∃ b, x.binary .adiVar f = .ok b ∧ ADI.fromBinary (b ++ List.replicate k '0') = .ok x := by
  obtain ⟨rest, _, H⟩ := ADI.binOk_adiVar hu hr hp hz
  exact ⟨_, H.enc_eq f, H.dec_eq f _⟩

{witness([r for r in R if r[1] == "adiVar"][0])}
/-- With an early terminator, the object is never recovered. -/
theorem C23_adi_fails (u rp : Str) (x : ADI) (f : Fin 64) (k : Nat) (hu : ADI.new u = .ok x) (hr : ∀ c ∈ rp, c ∈ gs39)
    (hp : x.partNumber = escape39 rp) (hz : EarlyTerminator rp) :
    ∃ b, x.binary .adiVar f = .ok b ∧ ADI.fromBinary (b ++ List.replicate k '0') ≠ .ok x := by
  obtain ⟨rp', rs, hrp, hrs, _, ep, es, _, _, _, _, _⟩ := ADI.parts hu
  obtain ⟨cb, _, _, _, hb⟩ := ADI.binary_form hu (fun c hc => (hrp c hc).1) hrs ep es
  exact ⟨_, hb f, ADI.fromBinary_early hu hr hp hz f _ (hb f)⟩

example : EarlyTerminator (py "PQ7VZ4") ∧ EarlyTerminator (py "PA1") ∧ ¬ EarlyTerminator (py "PQ7VZ3") ∧ ¬ EarlyTerminator [] := by decide +kernel

/-- Every accepted ADI has such an unescaped part number. -/
theorem C23_adi_part (u : Str) (x : ADI) (hu : ADI.new u = .ok x) : ∃ rp, (∀ c ∈ rp, c ∈ gs39) ∧ x.partNumber = escape39 rp := by
  obtain ⟨rp', rs, hrp, hrs, _, ep, es, _, _, _, _, _⟩ := ADI.parts hu
  exact ⟨rp', fun c hc => (hrp c hc).1, ep⟩

/-- The claim for ADI-var. -/
def C23_adi_claim : Prop := ∀ (u : Str) (x : ADI) (f : Fin 64) (k : Nat), ADI.new u = .ok x →
  ∃ b, x.binary .adiVar f = .ok b ∧ ADI.fromBinary (b ++ List.replicate k '0') = .ok x

/-- It is false: the code of `4` ends in two zeros, so in `PQ7VZ4` the six zeros are found two bits early. -/
theorem C23_adi_claim_false : ¬ C23_adi_claim := by
  intro h
  have h1 : ∃ x, ADI.new (py "urn:epc:id:adi:35962.PQ7VZ4.M37GXB92") = .ok x ∧ x.partNumber = escape39 (py "PQ7VZ4") := ⟨_, rfl, by decide +kernel⟩
  obtain ⟨x, hx, hp⟩ := h1
  obtain ⟨b, e1, e2⟩ := h _ x 0 0 hx
  obtain ⟨b', e3, e4⟩ := C23_adi_fails _ (py "PQ7VZ4") x 0 0 hx (by decide) hp (by decide +kernel)
  rw [e1] at e3
  injection e3 with e3
  subst e3
  exact e4 e2
'''
write("C23", s)

# ---------------------------------------------------------------- C24
s = head("C24", '''C24: encoding is injective.  Equal binary, hexadecimal or base64 forms under one coding scheme come from equal objects (as records of
all attributes, the URI included) and equal filter values.

Components in canonical form, and `tag_uri` returns.  False for GIAI references containing a colon, and for ITIP with piece and
total not of two digits.  ADI: also for part numbers that `from_binary` cannot recover (C23).
''', IMPS + ["Verif.Lemmas.AdiInj"])
for r in R:
    C, cs, name, size, hd, fn, w, kind, ex, can = r
    part = C in ("GIAI", "ITIP")
    bi, pr = binders(r, True)
    if C == "ADI":
        bi, pr = "(u : Str) (x : ADI) (f : Fin 64) (hu : ADI.new u = .ok x)", "ADI.binOk_aligned hu"
    # second copy
    import re as _re
    sub = {"u": "v", "body": "body'", "t": "t'", "x": "y", "f": "g", "ha": "ha'", "hu": "hu'", "hc": "hc'", "hs": "hs'", "ht": "ht'", "hp": "hp'", "hq": "hq'", "rp": "rp'", "hr": "hr'", "hz": "hz'"}
    def prime(z):
        # do not touch string literals
        parts = _re.split(r'("[^"]*")', z)
        for i in range(0, len(parts), 2):
            parts[i] = _re.sub(r"(?<![\w.])(" + "|".join(sub) + r")(?![\w'])", lambda m: sub[m.group(1)], parts[i])
        return "".join(parts)
    bi2, pr2 = prime(bi), prime(pr)
    f0, g0 = ("0", "0") if C == "GID" else ("f", "g")
    concl = "x = y" if C == "GID" else "x = y ∧ f = g"
    A, B = f"x.binary .{cs}{fa(C)}", f"y.binary .{cs}{fa(C,'g')}"
    ln = "(w := 0) (fun _ => rfl) (fun _ _ _ => Subsingleton.elim _ _)" if C == "GID" else f"(w := {w}) (fun f => length_bin (by omega) (by omega)) (fun f g e => Fin.ext (bin_inj e))"
    fbb = "(fun _ => by decide)" if C == "GID" else "(fun _ => Bits_bin _ _)"
    inj = f"H.inj H' (by decide) {fbb} rfl (by decide) {ln} {f0} {g0}"
    if C == "GID":
        end = f"  have := {inj}\n  exact ⟨fun e => (this.1 e).1, fun e => (this.2.1 e).1, fun e => (this.2.2 e).1⟩"
    else:
        end = f"  exact {inj}"
    s += f'''
/-- {name}. -/
theorem C24_{cs.replace("Var", "_var")}{"_partial" if part else ""} {bi}
    {bi2} :
    ({A} = {B} → {concl}) ∧ ({A.replace(".binary", ".hex")} = {B.replace(".binary", ".hex")} → {concl}) ∧
      ({A.replace(".binary", ".base64")} = {B.replace(".binary", ".base64")} → {concl}) := by
  obtain ⟨rest, _, H⟩ := {pr}
  obtain ⟨rest', _, H'⟩ := {pr2}
{end}

{witness(r)}'''
s += '''
/-- The claim for GIAI-202 without the hypothesis on colons. -/
def C24_giai_claim : Prop := ∀ (u v : Str) (x y : GIAI) (f : Fin 8), Ascii u → Ascii v → GIAI.new u = .ok x → GIAI.new v = .ok y →
  Canonical x.assetRef → Canonical y.assetRef → x.binary .giai202 f = y.binary .giai202 f → x.epcUri = y.epcUri

/-- It is false: the references `a:b` and `a:c` have the same binary. -/
theorem C24_giai_claim_false : ¬ C24_giai_claim := by
  intro h
  have h1 : ∃ x y, GIAI.new (py "urn:epc:id:giai:9521141.a:b") = .ok x ∧ GIAI.new (py "urn:epc:id:giai:9521141.a:c") = .ok y ∧
      x.assetRef = py "a" ∧ y.assetRef = py "a" ∧ x.binary .giai202 0 = y.binary .giai202 0 ∧ x.epcUri ≠ y.epcUri := by
    refine ⟨_, _, rfl, rfl, by decide +kernel, by decide +kernel, by decide +kernel, by decide +kernel⟩
  obtain ⟨x, y, h1, h2, h3, h4, h5, h6⟩ := h1
  have hc : Canonical (py "a") := ⟨py "a", by decide, by decide, by decide⟩
  exact h6 (h _ _ x y 0 (by decide) (by decide) h1 h2 (h3 ▸ hc) (h4 ▸ hc) h5)

/-- ITIP: piece 1 of 004 and piece 01 of 04 have the same binary. -/
theorem C24_itip_lengths_counterexample : ∃ x y, ITIP.new (py "urn:epc:id:itip:9521141.012345.1.004.981") = .ok x ∧
    ITIP.new (py "urn:epc:id:itip:9521141.012345.01.04.981") = .ok y ∧ x.binary .itip110 0 = y.binary .itip110 0 ∧
    (x.binary .itip110 0).isOk = true ∧ x.epcUri ≠ y.epcUri :=
  ⟨_, _, rfl, rfl, by decide +kernel, by decide +kernel, by decide +kernel⟩

/-- ADI: a part number that `from_binary` cannot recover (C23) is covered. -/
example : EarlyTerminator (py "PQ7VZ4") ∧ (ADI.new (py "urn:epc:id:adi:35962.PQ7VZ4.M37GXB92")).isOk = true := by decide +kernel
'''
write("C24", s)

# ---------------------------------------------------------------- C25, C26
s = head("C25", '''C25: the hexadecimal form is word aligned and round-trips.

`hexBits h` are the bits of `h`, four per digit; `wordPad n` is the number of zero bits that bring n bits to a multiple of 16.  The
theorems `C25_<class>` hold for every binary made of zeros and ones; `binary` returns other text only for serials like `-5` under a
numeric scheme, for which `tag_uri` refuses.  The theorems `C25_<scheme>` are the round trips.
''', IMPS + ["Verif.Lemmas.BinSplit"])
s6 = head("C26", '''C26: the base64 form round-trips, also after any number of the padding characters at its end were dropped.

`C26_<class>`: reading the base64 text is the same as reading the padded binary; `C26_<scheme>`: the round trips.
''', IMPS + ["Verif.Lemmas.BinSplit"])
for C in CLS:
    r = [q for q in R if q[0] == C][0]
    cs, fn, w = r[1], r[5], r[6]
    f = "" if C == "GID" else f" (f : Fin {fn})"
    form = "obtain ⟨s, hs⟩ := GID.binary_split hb" if C == "GID" else f"obtain ⟨s, hs, _⟩ := {C}.binary_split hb"
    s += f'''
/-- {C}. -/
theorem C25_{C.lower()} (x : {C}) (cs : {C}.Coding){f} (b : Str) (hb : x.binary cs{fa(C)} = .ok b) (hB : Bits b) :
    ∃ h, x.hex cs{fa(C)} = .ok h ∧ UpperHex h ∧ h.length = (b.length + 15) / 16 * 4 ∧
      hexBits h = b ++ List.replicate (wordPad b.length) '0' ∧ {C}.fromHex h = {C}.fromBinary (b ++ List.replicate (wordPad b.length) '0') := by
  {form}
  unfold {C}.hex
  rw [hb]
  exact hex_form hs (by cases cs <;> rfl) (by cases cs <;> decide) hB
'''
    s6 += f'''
/-- {C}. -/
theorem C26_{C.lower()} (x : {C}) (cs : {C}.Coding){f} (b : Str) (hb : x.binary cs{fa(C)} = .ok b) (hB : Bits b) :
    ∃ t, x.base64 cs{fa(C)} = .ok t ∧ ∀ t' k, t = t' ++ List.replicate k '=' →
      {C}.fromBase64 t' = {C}.fromBinary (b ++ List.replicate (wordPad b.length) '0') := by
  {form}
  unfold {C}.base64
  rw [hb]
  exact base64_form hs (by cases cs <;> rfl) (by cases cs <;> decide) hB
'''
    for r in [q for q in R if q[0] == C]:
        C, cs, name, size, hd, fn, w, kind, ex, can = r
        part = C in ("GIAI", "ITIP", "ADI")
        bi, pr = binders(r, True)
        f0 = "0" if C == "GID" else "f"
        fbb = "(fun _ => by decide)" if C == "GID" else "(fun _ => Bits_bin _ _)"
        s += f'''
/-- {name}. -/
theorem C25_{cs.replace("Var", "_var")}{"_partial" if part else ""} {bi} :
    ∃ h, x.hex .{cs}{fa(C)} = .ok h ∧ {C}.fromHex h = .ok x := by
  obtain ⟨rest, _, H⟩ := {pr}
  obtain ⟨b, h, _, e, _, _, _, e2⟩ := H.hex (by decide) {fbb} rfl (by decide) {f0}
  exact ⟨h, e, e2⟩

{witness(r)}'''
        s6 += f'''
/-- {name}. -/
theorem C26_{cs.replace("Var", "_var")}{"_partial" if part else ""} {bi} :
    ∃ s, x.base64 .{cs}{fa(C)} = .ok s ∧ ∀ s' k, s = s' ++ List.replicate k '=' → {C}.fromBase64 s' = .ok x := by
  obtain ⟨rest, _, H⟩ := {pr}
  exact H.base64_pads (by decide) {fbb} rfl (by decide) {f0}

{witness(r)}'''
write("C25", s)
write("C26", s6)

# ---------------------------------------------------------------- C68
def c68():
    import re as _re
    sub = {"u": "v", "t": "t'", "x": "y", "f": "g", "hu": "hu'", "hs": "hs'", "ht": "ht'", "hp": "hp'", "hq": "hq'"}
    def prime(z):
        return _re.sub(r"(?<![\w.])(" + "|".join(sub) + r")(?![\w'])", lambda m: sub[m.group(1)], z)
    arab = {"0": "٠", "1": "١", "2": "٢", "3": "٣", "4": "٤", "5": "٥", "6": "٦", "7": "٧", "8": "٨", "9": "٩"}
    s = head("C68", '''C68: round trips and injectivity of the encodings for digits of any script.

`asciiDigits u` is the URI `u` with every decimal digit written as the ASCII digit of the same value (Spec/Script.lean).  No restriction to
ASCII: what is read back is the object of `asciiDigits u`, and two objects have the same encoding exactly if their URIs agree in this
sense (and the filter values are equal).  GIAI: up to the first colon of the asset reference, which is all that `asset_ref` holds.
''', ["Verif.Lemmas.AvailAny", "Verif.Lemmas.Shape", "Verif.Lemmas.Base64Pads", "Verif.Props.C11"])
    s += '''
/-- Binary (with anything behind it), hexadecimal and base64 form of an encoded object are read as that object. -/
theorem BinOk.forms {α : Type} {n : Nat} {x : α} {enc : Fin n → Except Err Str} {dec : Str → Except Err α} {hd : Str}
    {fb : Fin n → Str} {rest : Str} (H : BinOk x enc dec hd fb rest) (hb : Bits hd) (fbb : ∀ f, Bits (fb f))
    (h8 : hd.length = 8) (hz : hd.take 4 ≠ py "0000") (f : Fin n) :
    ∃ b h s, enc f = .ok b ∧ hexOf (enc f) = .ok h ∧ base64Of (enc f) = .ok s ∧
      (∀ tail, dec (b ++ tail) = .ok x) ∧ fromHexWith dec h = .ok x ∧ fromBase64With dec s = .ok x := by
  obtain ⟨b, e1, -, -, e2⟩ := H.enc_form hb fbb f
  obtain ⟨_, h, _, e3, _, _, _, e4⟩ := H.hex hb fbb h8 hz f
  obtain ⟨s, e5, e6⟩ := H.base64_pads hb fbb h8 hz f
  exact ⟨b, h, s, e1, e3, e5, e2, e4, e6 s 0 (by simp)⟩
'''
    for r in R:
        C, cs, name, size, hd, fn, w, kind, ex, can = r
        if C == "ADI":
            continue
        nm = C.lower()
        part = False
        bi, pr = binders_any(r)
        bi2, pr2 = prime(bi), prime(pr)
        f0, g0 = ("0", "0") if C == "GID" else ("f", "g")
        uri = "py \"urn:epc:id:giai:\" ++ (asciiDigits x.companyPref ++ '.' :: x.assetRef)" if C == "GIAI" else "asciiDigits u"
        fbb = "(fun _ => by decide)" if C == "GID" else "(fun _ => Bits_bin _ _)"
        A, B = f"x.binary .{cs}{fa(C)}", f"y.binary .{cs}{fa(C,'g')}"
        A1, A2, B1, B2 = A.replace("binary", "hex"), A.replace("binary", "base64"), B.replace("binary", "hex"), B.replace("binary", "base64")
        same = "asciiDigits x.companyPref = asciiDigits y.companyPref ∧ x.assetRef = y.assetRef" if C == "GIAI" else "asciiDigits u = asciiDigits v"
        concl = same if C == "GID" else same + " ∧ f = g"
        ln = "(w := 0) (fun _ => rfl) (fun _ _ _ => Subsingleton.elim _ _)" if C == "GID" else f"(w := {w}) (fun f => length_bin (by omega) (by omega)) (fun f g e => Fin.ext (bin_inj e))"
        inj = f"H.inj H' (by decide) {fbb} rfl (by decide) {ln} {f0} {g0}"
        n = cs.replace("Var", "_var") + ("_partial" if part else "")
        st = f"""
/-- {name}: the round trips. -/
theorem C68_{n} {bi} :
    ∃ y b h s, {C}.new ({uri}) = .ok y ∧ {A} = .ok b ∧ {A1} = .ok h ∧ {A2} = .ok s ∧
      (∀ tail, {C}.fromBinary (b ++ tail) = .ok y) ∧ {C}.fromHex h = .ok y ∧ {C}.fromBase64 s = .ok y := by
  obtain ⟨y, hy, rest, _, H⟩ := {pr}
  obtain ⟨b, h, s, e⟩ := H.forms (by decide) {fbb} rfl (by decide) {f0}
  exact ⟨y, b, h, s, hy, e⟩

/-- {name}: what has equal encodings. -/
theorem C68_{cs.replace("Var", "_var")}_inj{"_partial" if part else ""} {bi}
    {bi2} :
    ({A} = {B} ↔ {concl}) ∧ ({A1} = {B1} ↔ {concl}) ∧
      ({A2} = {B2} ↔ {concl}) := by
"""
        if C == "GIAI":
            st += f"""  have back : {same} → ∀ k, x.binary .{cs} k = y.binary .{cs} k := by
    rintro ⟨e1, e2⟩ k
    obtain ⟨z, -, hz, ez, -, -, h⟩ := C63_giai u x hu
    obtain ⟨z', -, hz', ez', -, -, h'⟩ := C63_giai v y hu'
    obtain ⟨q, hq, -, -, -, -, hb, -⟩ := GIAI.normal hz
    obtain ⟨q', hq', -, -, -, -, hb', -⟩ := GIAI.normal hz'
    subst ez; subst ez'
    dsimp only at hq hq'
    rw [e1, e2] at hq
    rw [hq] at hq'
    injection hq' with hq'
    rw [← (h .{cs} k).2, ← (h' .{cs} k).2, ← hb, ← hb', hq']
"""
        else:
            kk, ka = ("", "") if C == "GID" else ("∀ k, ", " k")
            intro = "intro e1" if C == "GID" else "intro e1 k"
            cnt = {"SGTIN": 3, "SSCC": 3, "SGLN": 3, "GRAI": 3, "GSRN": 3, "GSRNP": 3, "GDTI": 3, "SGCN": 3, "ITIP": 2, "CPI": 2, "USDOD": 1, "GID": 1}[C]
            dash = "-, " * cnt
            ap = f".{cs}" + ka
            st += f"""  have back : {same} → {kk}x.binary {ap} = y.binary {ap} := by
    {intro}
    obtain ⟨z, -, hz, {dash}h⟩ := C63_{nm} u x hu
    obtain ⟨z', -, hz', {dash}h'⟩ := C63_{nm} v y hu'
    rw [e1, hz'] at hz
    injection hz with hz
    rw [← (h {ap}).2, ← (h' {ap}).2, hz]
"""
        fw = "fun e => ?_" 
        if C == "GIAI":
            uq = "  have uri : z = z' → " + same + """ := by
    intro e
    have hq := (C11_giai_partial _ _ hz).1.symm.trans ((congrArg GIAI.epcUri e).trans (C11_giai_partial _ _ hz').1)
    have d1 := dec_asciiDigits ((uDigits_iff _).1 (C14_giai_partial u x hu))
    have d2 := dec_asciiDigits ((uDigits_iff _).1 (C14_giai_partial v y hu'))
    exact append_sep_inj d1.no_dot d2.no_dot (List.append_cancel_left hq)
"""
        else:
            uq = f"""  have uri : z = z' → {same} := by
    intro e
    rw [← (C11_{nm} _ _ hz).1, ← (C11_{nm} _ _ hz').1, e]
"""
        fin = "" if C == "GID" else ", e2"
        if C == "GID":
            st += f"""  obtain ⟨z, hz, rest, _, H⟩ := {pr}
  obtain ⟨z', hz', rest', _, H'⟩ := {pr2}
{uq}  obtain ⟨i1, i2, i3⟩ := {inj}
  refine ⟨⟨fun e => uri (i1 e).1, back⟩, ⟨fun e => uri (i2 e).1, fun e => ?_⟩, ⟨fun e => uri (i3 e).1, fun e => ?_⟩⟩
  · exact congrArg hexOf (back e)
  · exact congrArg base64Of (back e)
"""
        else:
            un = "⟨e1, e3, e2⟩" if C == "GIAI" else "⟨e1, e2⟩"
            us = "⟨e1, e3⟩" if C == "GIAI" else "e1"
            def fwd(i):
                if C == "GIAI":
                    return f"fun e => ⟨(uri ({i} e).1).1, (uri ({i} e).1).2, ({i} e).2⟩"
                return f"fun e => ⟨uri ({i} e).1, ({i} e).2⟩"
            st += f"""  obtain ⟨z, hz, rest, _, H⟩ := {pr}
  obtain ⟨z', hz', rest', _, H'⟩ := {pr2}
{uq}  obtain ⟨i1, i2, i3⟩ := {inj}
  refine ⟨⟨{fwd('i1')}, ?_⟩, ⟨{fwd('i2')}, ?_⟩,
    ⟨{fwd('i3')}, ?_⟩⟩
  · rintro {un}; rw [e2]; exact back {us} g
  · rintro {un}; rw [e2]; exact congrArg hexOf (back {us} g)
  · rintro {un}; rw [e2]; exact congrArg base64Of (back {us} g)
"""
        s += st
        u2 = ex[0] + "".join(arab.get(ch, ch) for ch in ex.split(".")[0][1:]) + "." + ex.split(".", 1)[1] if C != "USDOD" else "CAGEY.5" + "".join(arab[c] for c in "678")
        s += f"""
example : Ascii (py "urn:epc:id:{nm}:{ex}") ∧ asciiDigits (py "urn:epc:id:{nm}:{u2}") = py "urn:epc:id:{nm}:{ex}" ∧
    ((do let x ← {C}.new (py "urn:epc:id:{nm}:{u2}"); x.tagUri .{cs}{'' if C == 'GID' else ' 3'}) : Except Err Str).isOk = true := by decide +kernel
"""
    write("C68", s)
c68()
