"""Generate lean/Verif/Lemmas/Tame.lean: which errors the parsers of the classes can raise."""
ALL = "ADI BIC CPI GDTI GIAI GID GINC GRAI GSIN GSRN GSRNP IMOVN ITIP LGTIN PGLN SGCN SGLN SGTIN SSCC UPUI USDOD".split()
# classes whose constructor verifies a serial, with the number of bound variables in new_error
VER = {"SGTIN": 3, "SGLN": 3, "GRAI": 3, "GDTI": 3, "GIAI": 2, "GINC": 2, "UPUI": 3, "LGTIN": 3, "ITIP": 5}
TAG = "ADI CPI GDTI GIAI GID GRAI GSRN GSRNP ITIP SGCN SGLN SGTIN SSCC USDOD".split()
ELEM = "CPI GDTI GIAI GINC GRAI GSIN GSRN GSRNP ITIP LGTIN PGLN SGCN SGLN SGTIN SSCC UPUI".split()
GROUP = "SGTIN LGTIN SGLN CPI ITIP".split()

out = ['''/-
Which errors the parsers can raise.  Generated by tools/gen_tame.py.
-/
import Verif.Lemmas.ElemParse
import Verif.Lemmas.Verify
import Verif.Lemmas.TagUri
import Verif.Lemmas.NewMore
import Verif.Lemmas.Dispatch

namespace Epc
open Re Spec

/-- The only errors are `ConvertException`, `ValueError` and `OverflowError`. -/
def Tame {α : Type} (r : Except Err α) : Prop := ∀ e, r = .error e → e = .convert ∨ e = .value ∨ e = .overflow

theorem Tame.ok {α : Type} (a : α) : Tame (.ok a : Except Err α) := fun _ h => by cases h
theorem Tame.pure {α : Type} (a : α) : Tame (Pure.pure a : Except Err α) := fun _ h => by cases h
theorem Tame.convert {α : Type} : Tame (.error .convert : Except Err α) := fun _ h => by cases h; exact .inl rfl
theorem Tame.value {α : Type} : Tame (.error .value : Except Err α) := fun _ h => by cases h; exact .inr (.inl rfl)

theorem Tame.bind {α β : Type} {x : Except Err α} {f : α → Except Err β} (hx : Tame x) (hf : ∀ a, x = .ok a → Tame (f a)) : Tame (x >>= f) := by
  intro e h
  rcases bind_error_iff.1 h with h | ⟨a, ha, h⟩
  · exact hx e h
  · exact hf a ha e h

theorem Tame.map {α β : Type} {x : Except Err α} {f : α → β} (hx : Tame x) : Tame (x.map f) := by
  cases x with
  | ok a => exact Tame.ok _
  | error e => intro e' h; cases h; exact hx e rfl

theorem Tame.mapM {α β : Type} {f : α → Except Err β} {l : List α} (hf : ∀ a ∈ l, Tame (f a)) : Tame (l.mapM f) := by
  intro e h
  obtain ⟨a, ha, h⟩ := mapM_error h
  exact hf a ha e h

theorem Tame.guard (c : Bool) : Tame (guardConvert c) := by
  intro e h
  exact .inl (guard_error_iff.1 h).2

theorem Tame.int (b : Nat) (s : Str) : Tame (pyInt b s) := fun _ h => .inr (.inl (pyInt_error h))
theorem Tame.chr (i : Int) : Tame (Epc.chr i) := fun _ h => .inr (chr_error h)
theorem Tame.verify (s : Str) : Tame (verifyGs3a3 s) := fun _ h => verify_error h
theorem Tame.unpack2 (l : List Str) : Tame (Epc.unpack2 l) := by unfold Epc.unpack2; split <;> first | exact Tame.ok _ | exact Tame.value
theorem Tame.unpack3 (l : List Str) : Tame (Epc.unpack3 l) := by unfold Epc.unpack3; split <;> first | exact Tame.ok _ | exact Tame.value
theorem Tame.unpack2s (l : List Str) : Tame (Epc.unpack2s l) := by unfold Epc.unpack2s; split <;> first | exact Tame.ok _ | exact Tame.value
theorem Tame.binInt (s : Str) : Tame (binaryToInt s) := by
  unfold binaryToInt
  exact Tame.int 2 _
theorem Tame.binIntStr (s : Str) : Tame (Epc.binIntStr s) := by
  unfold Epc.binIntStr
  exact Tame.bind (Tame.binInt s) fun _ _ => Tame.pure _
''']
W = out.append
# constructors
for c in ALL:
    W(f"theorem {c}.new_tame (u : Str) : Tame ({c}.new u) := by\n  intro e h")
    if c in VER:
        n = VER[c]
        W(f"  rcases {c}.new_error h with rfl | ⟨{', '.join('_' * n)}, _, _, hv⟩\n  · exact .inl rfl\n  · exact verify_error hv\n")
    else:
        W(f"  exact .inl ({c}.new_error h)\n")
# tag URIs
W('''theorem fromTagUri_tame {α : Type} {new : Str → Except Err α} (hn : ∀ u, Tame (new u)) (b : Bool) (t : Str) : Tame (Epc.fromTagUri new b t) := by
  cases hm : Rx.tagUri.matchPrefix t with
  | false => rw [fromTagUri_nomatch hm]; exact Tame.convert
  | true =>
    obtain ⟨n, r, hn', rfl, -⟩ := tagUri_match hm
    have hc := (tagNames_facts hn').1
    have hs : split ':' (tagUriPrefix ++ n ++ ':' :: r) = [py "urn", py "epc", py "tag"] ++ n :: split ':' r := by
      show split ':' (py "urn:epc:tag:" ++ n ++ ':' :: r) = _
      have e : py "urn:epc:tag:" ++ n ++ ':' :: r = py "urn:epc:" ++ py "tag" ++ ':' :: (n ++ ':' :: r) := by simp
      rw [e, split_urn _ _ _ (by decide) hc]
      rfl
    unfold Epc.fromTagUri
    rw [hm, hs]
    simp only [Bool.not_true, Bool.false_eq_true, if_false]
    obtain ⟨p, q, hpq⟩ : ∃ p q, split ':' r = p :: q := by
      cases h : split ':' r with
      | nil => exact absurd h (split_ne_nil _ _)
      | cons p q => exact ⟨p, q, rfl⟩
    rw [hpq]
    obtain ⟨p', q', hpq'⟩ : ∃ p q, split '-' n = p :: q := by
      cases h : split '-' n with
      | nil => exact absurd h (split_ne_nil _ _)
      | cons p q => exact ⟨p, q, rfl⟩
    rw [getPart_ok (s := n) rfl, ok_bind, hpq']
    cases b <;> simp only [Bool.false_eq_true, if_false, if_true]
    · rw [getPart_ok (s := p) rfl, ok_bind, getPart_ok (s := p') rfl, ok_bind]
      exact hn _
    · rw [ok_bind, getPart_ok (s := p') rfl, ok_bind]
      exact hn _
''')
for c in TAG:
    W(f"theorem {c}.fromTagUri_tame (t : Str) : Tame ({c}.fromTagUri t) := Epc.fromTagUri_tame {c}.new_tame _ t")
# binary
W('''
theorem parseHeader_tame {κ : Type} {headers : List (Str × κ)} {value : κ → Str} {b : Str}
    (h : b.take 8 ∈ headers.map (·.1)) : Tame (parseHeader headers value b) := by
  unfold parseHeader
  split
  · rename_i hl
    rw [List.lookup_eq_none_iff] at hl
    obtain ⟨p, hp, e⟩ := List.mem_map.1 h
    have := hl p hp
    rw [e] at this
    simp at this
  · split
    · split
      · refine Tame.bind (Tame.int _ _) fun n _ => ?_
        split
        · exact Tame.convert
        · exact Tame.pure _
      · exact Tame.ok _
    · exact Tame.value

theorem parseHeader_key {κ : Type} {headers : List (Str × κ)} {value : κ → Str} {b : Str}
    (h : b.take 8 ∉ headers.map (·.1)) : parseHeader headers value b = .error .key := by
  have hl : headers.lookup (b.take 8) = Option.none := by
    rw [List.lookup_eq_none_iff]
    intro p hp
    simp only [bne_iff_ne, ne_eq]
    intro e
    exact h (List.mem_map.2 ⟨p, hp, e.symm⟩)
  unfold parseHeader
  rw [hl]

theorem decodeString_tame (s : Str) : Tame (decodeString s) := by
  unfold decodeString
  refine Tame.bind (Tame.mapM fun g _ => ?_) fun _ _ => Tame.pure _
  unfold decodeBinaryChar
  split
  · exact Tame.ok _
  · split
    · exact Tame.ok _
    · exact Tame.bind (Tame.int _ _) fun _ _ => Tame.bind (Tame.chr _) fun _ _ => Tame.pure _

theorem decodeStringSixBits_tame (s : Str) (n : Nat) : Tame (decodeStringSixBits s n) := by
  have hl : ∀ l, Tame (decodeSixLoop l) := by
    intro l
    induction l with
    | nil => exact Tame.ok _
    | cons g gs ih =>
      unfold decodeSixLoop
      split
      · exact Tame.ok _
      · split
        · exact ih
        · split <;> exact Tame.bind (Tame.int _ _) fun _ _ => Tame.bind (Tame.chr _) fun _ _ => Tame.bind ih fun _ _ => Tame.pure _
  unfold decodeStringSixBits
  refine Tame.bind (hl _) fun r _ => ?_
  split
  · exact Tame.convert
  · exact Tame.pure _

theorem keyToConvert_rowByP_tame (t : List Row) (i : Int) : Tame (keyToConvert (rowByP t i)) := by
  unfold rowByP
  split
  · exact Tame.ok _
  · exact Tame.convert

theorem decodePartitionTable_tame (b : Str) (t : List Row) (m : PartMode) : Tame (decodePartitionTable b t m) := by
  unfold decodePartitionTable
  refine Tame.bind (Tame.binInt _) fun p _ => Tame.bind (keyToConvert_rowByP_tame _ _) fun row _ => Tame.bind (Tame.binInt _) fun C _ => ?_
  refine Tame.bind ?_ fun D _ => ?_
  · unfold decodeRef
    split
    · exact decodeString_tame _
    · exact decodeStringSixBits_tame _ _
    · split
      · exact Tame.bind (Tame.binInt _) fun _ _ => Tame.pure _
      · exact Tame.ok _
  · dsimp only
    split
    · exact Tame.convert
    · refine Tame.bind ?_ fun l _ => ?_
      · unfold refTooLarge
        split
        · exact Tame.bind (Tame.int _ _) fun _ _ => Tame.pure _
        · exact Tame.ok _
      · split
        · exact Tame.convert
        · exact Tame.pure _

theorem decodeNumericString_tame (s : Str) : Tame (decodeNumericString s) := by
  unfold decodeNumericString
  refine Tame.bind (Tame.int _ _) fun i _ => ?_
  dsimp only
  split
  · exact Tame.convert
  · exact Tame.pure _

theorem decodeFixedWidthInteger_tame (s : Str) : Tame (decodeFixedWidthInteger s) := by
  unfold decodeFixedWidthInteger
  refine Tame.bind (Tame.int _ _) fun i _ => ?_
  split
  · exact Tame.convert
  · exact Tame.pure _

theorem decodeCageCode_tame (s : Str) : Tame (decodeCageCode s) := by
  unfold decodeCageCode
  refine Tame.bind (Tame.mapM fun g _ => ?_) fun _ _ => Tame.pure _
  split
  · exact Tame.ok _
  · exact Tame.bind (Tame.int _ _) fun _ _ => Tame.bind (Tame.chr _) fun _ _ => Tame.pure _

theorem decodeCageCodeSixBits_tame (s : Str) : Tame (decodeCageCodeSixBits s) := by
  unfold decodeCageCodeSixBits
  exact decodeStringSixBits_tame _ _

theorem CPI.decodeParts_tame (cs : CPI.Coding) (b : Str) : Tame (CPI.decodeParts cs b) := by
  unfold CPI.decodeParts
  split
  · exact Tame.bind (decodePartitionTable_tame _ _ _) fun _ _ => Tame.pure _
  · dsimp only
    refine Tame.bind (decodePartitionTable_tame _ _ _) fun cpi h => ?_
    refine Tame.bind (Tame.binInt _) fun p hp => Tame.bind ?_ fun row _ => Tame.pure _
    unfold decodePartitionTable at h
    rw [hp, ok_bind] at h
    obtain ⟨row, hr, -⟩ := bind_ok_iff.1 h
    unfold rowByP at hr ⊢
    split at hr
    · exact Tame.ok _
    · cases hr
''')
STEP = {
 "ADI": ["exact Tame.bind (Tame.guard _) fun _ _ => Tame.bind (Tame.unpack2s _) fun ⟨p, _, r⟩ _ => Tame.bind (Tame.binInt _) fun _ _ => Tame.bind (decodeCageCodeSixBits_tame _) fun _ _ => Tame.bind (decodeStringSixBits_tame _ _) fun _ _ => Tame.bind (decodeStringSixBits_tame _ _) fun _ _ => ADI.fromTagUri_tame _"],
 "CPI": ["exact Tame.bind (CPI.decodeParts_tame _ _) fun ⟨_, _⟩ _ => Tame.bind (Tame.binInt _) fun _ _ => Tame.bind (Tame.binIntStr _) fun _ _ => CPI.fromTagUri_tame _"],
 "GID": ["exact Tame.bind (Tame.binIntStr _) fun _ _ => Tame.bind (Tame.binIntStr _) fun _ _ => Tame.bind (Tame.binIntStr _) fun _ _ => GID.fromTagUri_tame _"],
 "USDOD": ["exact Tame.bind (Tame.binInt _) fun _ _ => Tame.bind (decodeCageCode_tame _) fun _ _ => Tame.bind (Tame.binIntStr _) fun _ _ => USDOD.fromTagUri_tame _"],
 "GIAI": ["refine Tame.bind (Tame.binInt _) fun _ _ => ?_", "split <;> exact Tame.bind (decodePartitionTable_tame _ _ _) fun _ _ => GIAI.fromTagUri_tame _"],
 "SGCN": ["exact Tame.bind (Tame.binInt _) fun _ _ => Tame.bind (decodePartitionTable_tame _ _ _) fun _ _ => Tame.bind (decodeNumericString_tame _) fun _ _ => SGCN.fromTagUri_tame _"],
 "ITIP": ["refine Tame.bind (Tame.binInt _) fun _ _ => Tame.bind (decodePartitionTable_tame _ _ _) fun _ _ => Tame.bind (decodeFixedWidthInteger_tame _) fun _ _ => Tame.bind (decodeFixedWidthInteger_tame _) fun _ _ => ?_",
   "split", "· exact Tame.bind (Tame.binIntStr _) fun _ _ => ITIP.fromTagUri_tame _", "· exact Tame.bind (decodeString_tame _) fun _ _ => ITIP.fromTagUri_tame _"],
}
for c in "SSCC GSRN GSRNP".split():
    STEP[c] = [f"exact Tame.bind (Tame.binInt _) fun _ _ => Tame.bind (decodePartitionTable_tame _ _ _) fun _ _ => {c}.fromTagUri_tame _"]
for c in "SGTIN SGLN GRAI GDTI".split():
    STEP[c] = ["refine Tame.bind (Tame.binInt _) fun _ _ => Tame.bind (decodePartitionTable_tame _ _ _) fun _ _ => ?_",
       "split", f"· exact Tame.bind (Tame.binIntStr _) fun _ _ => {c}.fromTagUri_tame _", f"· exact Tame.bind (decodeString_tame _) fun _ _ => {c}.fromTagUri_tame _"]
for c in TAG:
    W(f'''theorem {c}.fromBinary_tame {{b : Str}} (h : b.take 8 ∈ {c}.headers.map (·.1)) : Tame ({c}.fromBinary b) := by
  unfold {c}.fromBinary
  refine Tame.bind (parseHeader_tame h) fun p _ => ?_
  obtain ⟨cs, b'⟩ := p
  dsimp only
  ''' + "\n  ".join(STEP[c]) + "\n")
    W(f'''theorem {c}.fromBinary_key {{b : Str}} (h : b.take 8 ∉ {c}.headers.map (·.1)) : {c}.fromBinary b = .error .key := by
  unfold {c}.fromBinary
  rw [parseHeader_key h]
  rfl
''')
# element strings
HEAD = "SGTIN LGTIN UPUI SSCC ITIP".split()      # first digit is separate
GROUP = "SGTIN LGTIN SGLN".split()               # a bracketed group in the serial breaks the split
TWO = "SGTIN LGTIN UPUI SGLN GRAI GDTI SGCN ITIP".split()
for c in ELEM:
    W(f"""theorem {c}.fromElem_tame (s : Str) (n : Int) : Tame ({c}.fromGs1ElementString s n) := by
  cases hm : Rx.{c.lower()}Elem.fullmatch s with
  | false =>
    unfold {c}.fromGs1ElementString
    rw [hm]
    exact Tame.convert
  | true =>""")
    if c in ("GIAI", "GINC"):
        W(f"    rw [{c}.from_eq n hm]\n    exact {c}.new_tame _\n")
        continue
    if c == "CPI":
        W("""    obtain ⟨d, r, t, hd, hr, ht, rfl⟩ := (CPI.elem_lang s).1 hm
    rw [← List.append_assoc d] at hm ⊢
    have hb : '(' ∉ d ++ r := by
      intro hx
      rcases List.mem_append.1 hx with hx | hx
      · exact hd.1.no_paren hx
      · exact CPI.gs39_no_paren hr.1 hx
    rw [CPI.from_eq n hm hb ht.1.no_paren]
    exact CPI.new_tame _
""")
        continue
    hc = " hc" if c in TWO else ""
    W(f"    obtain ⟨d, {'c, ' if hc else ''}⟨hd, hl⟩, {'hc, ' if hc else ''}rfl⟩ := ({c}.elem_lang s).1 hm")
    if c in HEAD:
        W("    cases d with\n    | nil => simp at hl\n    | cons i d => ?_")
    if c in GROUP:
        W(f"    by_cases hg : HasGroup {3 if c == 'SGLN' else 2} c\n    · rw [{c}.from_group n hd hl hc hg]; exact Tame.value")
        W(f"    rw [{c}.from_eq n hd hl hc hg]\n    exact {c}.new_tame _\n")
    else:
        W(f"    rw [{c}.from_eq n hd hl{hc}]\n    exact {c}.new_tame _\n")
# dispatch
W("theorem Cls.new_tame (c : Cls) (u : Str) : Tame (c.new u) := by\n  cases c")
for c in ALL:
    W(f"  · exact ({c}.new_tame u).map")
W("\ntheorem Cls.fromTagUri_tame {c : Cls} (h : c.isTagEncodable = true) (t : Str) : Tame (c.fromTagUri t) := by\n  cases c")
for c in ALL:
    W(f"  · exact ({c}.fromTagUri_tame t).map" if c in TAG else "  · cases h")
W("\ntheorem Cls.fromElem_tame {c : Cls} (h : c.isGs1Element = true) (s : Str) (n : Int) : Tame (c.fromGs1ElementString s n) := by\n  cases c")
for c in ALL:
    W(f"  · exact ({c}.fromElem_tame s n).map" if c in ELEM else "  · cases h")
W("\ntheorem Cls.fromBinary_tame {c : Cls} {b : Str} (h : b.take 8 ∈ c.binaryHeaders) : Tame (c.fromBinary b) := by\n  cases c")
for c in ALL:
    W(f"  · exact ({c}.fromBinary_tame h).map" if c in TAG else "  · cases h")
W("\ntheorem Cls.fromBinary_key {c : Cls} {b : Str} (hc : c.isTagEncodable = true) (h : b.take 8 ∉ c.binaryHeaders) : c.fromBinary b = .error .key := by\n  cases c")
for c in ALL:
    W(f"  · show Except.map _ _ = _; rw [{c}.fromBinary_key h]; rfl" if c in TAG else "  · cases hc")
text = "\n".join(out)
import sys
open("/verif/lean/Verif/Lemmas/Tame.lean", "w").write(text + "\nend Epc\n")
