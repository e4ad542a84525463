#!/usr/bin/env python3
"""Writes lean/Verif/Refine/Foreign/*.lean: the output methods executed from the source with a coding scheme and a filter value of any class."""
import os
LEAN = os.path.join(os.path.dirname(os.path.abspath(__file__)), '..', 'lean', 'Verif')
ALL = ['SGTIN', 'SSCC', 'SGLN', 'GRAI', 'GIAI', 'GSRN', 'GSRNP', 'GDTI', 'CPI', 'SGCN', 'ITIP', 'GID', 'USDOD', 'ADI']
BAD = {'SGTIN': 'Epc.SGTIN.badSerial', 'SGLN': 'Epc.SGLN.badSerial', 'GRAI': 'Epc.GRAI.badSerial', 'GIAI': 'Epc.GIAI.badAssetRef', 'GDTI': 'Epc.GDTI.badSerial',
       'CPI': 'cpi_bad96, cpi_badVar', 'ITIP': 'Epc.ITIP.badSerial'}
COD = {'SGTIN': ['sgtin96', 'sgtin198'], 'SSCC': ['sscc96'], 'SGLN': ['sgln96', 'sgln195'], 'GRAI': ['grai96', 'grai170'], 'GIAI': ['giai96', 'giai202'], 'GSRN': ['gsrn96'],
       'GSRNP': ['gsrnp96'], 'GDTI': ['gdti96', 'gdti174'], 'CPI': ['cpi96', 'cpiVar'], 'SGCN': ['sgcn96'], 'ITIP': ['itip110', 'itip212'], 'GID': ['gid96'],
       'USDOD': ['usdod96'], 'ADI': ['adiVar']}
BIN = {'SGTIN': 'sem_str_to_binary, sem_encode_partition_table, sem_encode_string, tableL_SGTIN'}

def out(name, text):
    with open(os.path.join(LEAN, 'Refine', 'Foreign', name), 'w') as f: f.write(text)

def cls(c):
    gid = c == 'GID'
    fa, fv, fx, fargs = ('', '', '', '') if gid else (' (f : Fin 64) (o : Cl) (e m : Nm) (nm : Str)', ', (.filter_value, .member o e m nm (filterStr f))', ' f', ' f o e m nm')
    def stmt(meth, lvl, recv, model, name):
        return f'''theorem any_{c}_{name} (n : Nat) (x : Epc.{c}) (cs : AnyCoding){fa} :
    (level (n + {lvl})).app (.bound {recv}.{meth} (obj{c} x)) [] [(.binary_coding_scheme, codAny cs){fv}] =
      (lift (x.{model} cs{fx})).map .str'''
    common = f'obj{c}, tagAttrs, del, codAny, AnyCoding.value, ' + ', '.join(f'cod{d}, Epc.{d}.Coding.value' for d in ALL) + f', Epc.{c}.Coding.header'
    cases = '  rw [app_bound]\n  rcases cs with ' + ' | '.join(['cs'] * len(ALL)) + ' <;> cases cs\n'
    bad = ', ' + BAD[c] if c in BAD else ''
    exe = f'exe [{c}.tag_uri, Epc.{c}.tagUriAny, {common}{bad}]'
    post = ''
    if c == 'GIAI': exe = f'first | (exe [{c}.tag_uri, Epc.{c}.tagUriAny, {common}{bad}]; done) | (exe [{c}.tag_uri, Epc.{c}.tagUriAny, {common}{bad}]; rename_i hn _ _ _; exe [{c}.tag_uri, Epc.{c}.tagUriAny, {common}{bad}, if_neg hn])'
    if c == 'CPI': post = '  rename_i hn\n  rw [Bool.not_eq_true] at hn\n  rw [hn, Bool.false_or]\n'
    b = ', ' + BIN[c] if c in BIN else ''
    t = stmt('tag_uri', 10, c, 'tagUriAny', 'tag_uri') + ' := by\n' + cases + f'  all_goals {exe}\n{post}\n'
    t += stmt('binary', 10, c, 'binaryAny', 'binary') + ' := by\n' + cases + f'  all_goals exe [{c}.binary, Epc.{c}.binaryAny, {common}{b}]\n  all_goals rfl\n\n'
    t += stmt('hex', 11, 'TagEncodable', 'hexAny', 'hex') + f' :=\n  sem_hex n (fun _ => rfl) rfl (any_{c}_binary n x cs{fargs})\n\n'
    t += stmt('base64', 12, 'TagEncodable', 'base64Any', 'base64') + f' :=\n  sem_base64 n (fun _ => rfl) rfl (any_{c}_hex n x cs{fargs})\n\n'
    return t

for c in ALL:
    out(c.capitalize() + '.lean', f'''/-
`tag_uri`, `binary`, `hex` and `base64` of {c}, executed from the source with a coding scheme and a filter value of any class.
Generated by tools/gen_foreign_src.py.
-/
import Verif.Refine.Schemes
set_option linter.unusedSimpArgs false

namespace Epc.Src
open Epc.Spec

''' + cls(c) + 'end Epc.Src\n')

# lean/Verif/Lemmas/Unusual.lean
HEAD = '''/-
The output methods of each class with members of other enumerations.
Generated by tools/gen_foreign_src.py.
-/
import Verif.Spec.Unusual
import Verif.Lemmas.Program
import Verif.Props.C84
import Verif.Props.C85
import Verif.Props.C16
''' + ''.join(f'import Verif.Refine.Foreign.{c.capitalize()}\n' for c in ALL) + '''set_option linter.unusedSimpArgs false

namespace Epc.Src
open Spec Grammar

theorem any_coding {d : Cls} {s : Val} (h : s ∈ codings (clOf d)) : ∃ cs : AnyCoding, cs.cls = d ∧ s = codAny cs := by
  cases d
''' + ''.join(f'  case {c.lower()} =>\n    have e : codings (clOf .{c.lower()}) = [{", ".join(f"cod{c} .{k}" for k in COD[c])}] := rfl\n    rw [e] at h\n    simp only [List.mem_cons, List.not_mem_nil, or_false] at h\n' + ('    rcases h with rfl | rfl\n' if len(COD[c]) == 2 else '    subst h\n') + ''.join(f'    · exact ⟨.{c.lower()} .{k}, rfl, rfl⟩\n' for k in COD[c]) for c in ALL) + '''  all_goals exact nomatch h

theorem any_value {cs : AnyCoding} {name : Str} (h : read (codAny cs) .value = .ok (.str name)) : name = cs.value := by
  rcases cs with ''' + ' | '.join(['cs'] * len(ALL)) + ''' <;> cases cs <;> (cases h; rfl)

theorem head_colon (b : Str) : (split ':' b).headD [] = b.takeWhile (· ≠ ':') := by
  induction b with
  | nil => rfl
  | cons c b ih =>
    by_cases h : c = ':'
    · subst h; rw [split_cons_sep]; rfl
    · rw [split_cons_ne h, List.takeWhile_cons, ← ih]; simp [h]

theorem splice_filter {h z r : Str} {k : Nat} (hh : h.length = 8) (hz : z.length = k) (g : Str) :
    h ++ (g ++ r) = (h ++ (z ++ r)).take 8 ++ g ++ (h ++ (z ++ r)).drop (8 + k) := by
  rw [List.take_append_of_le_length (by omega), List.take_of_length_le (by omega), ← List.append_assoc h z r, List.drop_append_of_le_length (by simp; omega),
    List.drop_of_length_le (by simp; omega)]
  simp

theorem widened_of {c : Cls} {o s v v0 : Val} {f : Fin 64} {A : Fin 64 → Except Err Str} {hd : Str}
    (h1 : invoke o .binary [] (tagArgs c s v) = outcome .str (A f)) (h0 : invoke o .binary [] (tagArgs c s v0) = outcome .str (A 0))
    (hh : hd.length = 8) (hz : (bin (filterBits c) 0).length = filterBits c) (hp : 0 < filterBits c)
    (hA : ∀ b, A f = .ok b → ∃ r, b = hd ++ (bin (filterBits c) f ++ r) ∧ A 0 = .ok (hd ++ (bin (filterBits c) 0 ++ r))) : Widened c o s f v v0 := by
  intro b hb
  rw [h1] at hb
  obtain ⟨r, rfl, e0⟩ := hA b (outcome_str_ok.1 hb)
  refine ⟨_, by rw [h0, e0]; rfl, fun w hw hlt hor => ?_⟩
  have hg := Epc.filterBits hp hw hlt hor
  have hl : (bitsOf w f.val).length = w := length_bitsOf _ _
  rw [hg]
  exact ⟨splice_filter hh hz _, by simp only [List.length_append]; omega⟩

'''

def lemmas(c):
    l = c.lower(); gid = c == 'GID'
    args = '' if gid else ' f o e m nm'
    fx = '' if gid else ' f'
    t = f'''theorem calls_{c} (x : Epc.{c}) (cs : AnyCoding) (f : Fin 64) (v : Val) (hv : IsFilter f v) :
    invoke (obj{c} x) .tag_uri [] (tagArgs .{l} (codAny cs) v) = outcome .str (x.tagUriAny cs{fx}) ∧
    invoke (obj{c} x) .binary [] (tagArgs .{l} (codAny cs) v) = outcome .str (x.binaryAny cs{fx}) ∧
    invoke (obj{c} x) .hex [] (tagArgs .{l} (codAny cs) v) = outcome .str (x.hexAny cs{fx}) ∧
    invoke (obj{c} x) .base64 [] (tagArgs .{l} (codAny cs) v) = outcome .str (x.base64Any cs{fx}) := by
  obtain ⟨o, e, m, nm, rfl⟩ := hv
  refine ⟨?_, ?_, ?_, ?_⟩ <;> rw [← lift_outcome]
  · exact invoke_eq rfl (fun _ => rfl) (any_{c}_tag_uri 14 x cs{args})
  · exact invoke_eq rfl (fun _ => rfl) (any_{c}_binary 14 x cs{args})
  · exact invoke_eq rfl (fun _ => rfl) (any_{c}_hex 13 x cs{args})
  · exact invoke_eq rfl (fun _ => rfl) (any_{c}_base64 12 x cs{args})

theorem foreign_{c} {{u : Str}} {{x : Epc.{c}}} {{cs : AnyCoding}} {{f : Fin 64}} {{v : Val}} (hu : Epc.{c}.new u = .ok x) (hc : cs.cls ≠ .{l}) (hv : IsFilter f v) :
    ForeignCall .{l} (obj{c} x) u (codAny cs) cs.value f v := by
  obtain ⟨w1, w2, w3, w4⟩ := calls_{c} x cs f v hv
  obtain ⟨k2, k3, k4, b, t, hb, ht, k1, k5, -⟩ := C84_{l}_partial{'' if gid else ' (f := f)'} hu hc
  rw [k1] at w1; rw [k2] at w2; rw [k3] at w3; rw [k4] at w4
  have et : t = py "urn:epc:tag:" ++ cs.value ++ ':' :: (filterText .{l} f ++ tagBody .{l} u) := by
    rw [ht, hb{', head_colon' if c == 'GIAI' else ''}]
    simp [filterText, tagBody, afterColons]
  rw [et] at w1 k5
  refine ⟨w1, ?_, ?_⟩
  · refine (invoke_eq rfl (fun _ => rfl) (sem_{c}_from_tag_uri {12 if gid else 13} _)).trans ?_
    rw [k5]; rfl
  · intro m hm
    simp only [List.mem_cons, List.not_mem_nil, or_false] at hm
    rcases hm with rfl | rfl | rfl
    · exact w2
    · exact w3
    · exact w4

'''
    if not gid:
        t += f'''theorem widened_{c} (x : Epc.{c}) (cs : Epc.{c}.Coding) (f : Fin 64) (v v0 : Val) (hv : IsFilter f v) (hv0 : IsFilter (0 : Fin 64) v0) :
    Widened .{l} (obj{c} x) (codAny (.{l} cs)) f v v0 :=
  widened_of (A := fun f => x.binaryAny (.{l} cs) f) (hd := cs.header) (calls_{c} x (.{l} cs) f v hv).2.1 (calls_{c} x (.{l} cs) 0 v0 hv0).2.1 (by cases cs <;> rfl) (by decide) (by decide)
    (fun b hb => Epc.{c}.binaryAny_zero hb)

'''
        back = f'C16_{l} u x cs f t hu' if c == 'ADI' else f'(C85_{l}_partial hu{" hf" if c == "GIAI" else ""} cs f).2.1 t'
        hf = f" (hf : ':' ∉ afterColons 4 u)" if c == 'GIAI' else ''
        pre = ''
        if c == 'GIAI':
            pre = f'''  have hf : u = py "urn:epc:id:giai:" ++ x.companyPref ++ '.' :: x.assetRef := by
    obtain ⟨C, S, ⟨hC, hS⟩, _, rfl, rfl⟩ := Epc.GIAI.new_iff.1 hu
    have hS' : ':' ∉ S := fun hm => hf (by simp [afterColons, hm])
    simp [split_notMem hS']
'''
        t += f'''theorem readBack_{c} {{u : Str}} {{x : Epc.{c}}} (hu : Epc.{c}.new u = .ok x) (cs : Epc.{c}.Coding) (f : Fin 64) (v : Val) (hv : IsFilter f v){hf} :
    ReadBack .{l} (obj{c} x) (codAny (.{l} cs)) v := by
{pre}  intro t ht
  rw [(calls_{c} x (.{l} cs) f v hv).1] at ht
  have h := {back} (outcome_str_ok.1 ht)
  have e : invoke (.cls .{c}) .from_tag_uri [.str t] [] = (lift (Epc.{c}.fromTagUri t)).map obj{c} :=
    invoke_eq rfl (fun _ => rfl) (sem_{c}_from_tag_uri 13 t)
  show invoke (.cls .{c}) .from_tag_uri [.str t] [] = _
  rw [e, h]
  rfl

'''
    return t

with open(os.path.join(LEAN, 'Lemmas', 'Unusual.lean'), 'w') as f:
    f.write(HEAD + ''.join(map(lemmas, ALL)) + 'end Epc.Src\n')
