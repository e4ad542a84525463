/-
C110: from the GTIN and the serial number of an item to its tag and its label, and back.

`Item`, `Item.make`, `Item.label`, `Item.Coding`, `TagOf`: `Spec/Commission`.
-/
import Verif.Spec.Commission
import Verif.Lemmas.Program
import Verif.Props.C01
import Verif.Props.C16
import Verif.Props.C17
import Verif.Props.C18
import Verif.Props.C32
import Verif.Props.C35
import Verif.Props.C37
import Verif.Props.C39
import Verif.Props.C40
import Verif.Props.C47
import Verif.Props.C48
import Verif.Props.C65
import Verif.Props.C68
import Verif.Props.C78
import Verif.Props.C95
import Verif.Props.C97
set_option linter.unusedVariables false

namespace Epc.Src
open Spec

private theorem split14 {G : Str} {n : Nat} (hl : G.length = 14) (h6 : 6 ≤ n) (h12 : n ≤ 12) :
    ∃ i C I k, G = i :: (C ++ (I ++ [k])) ∧ C.length = n ∧ C.length + (i :: I).length = 13 := by
  cases G with
  | nil => cases hl
  | cons i r =>
    have hr : r.length = 13 := by simpa using hl
    have hd : (r.drop n).length = 13 - n := by rw [List.length_drop, hr]
    have hne : r.drop n ≠ [] := fun h => by rw [h] at hd; simp at hd; omega
    refine ⟨i, r.take n, (r.drop n).dropLast, (r.drop n).getLast hne, ?_, ?_, ?_⟩
    · rw [List.dropLast_concat_getLast, List.take_append_drop]
    · rw [List.length_take, hr]; omega
    · rw [List.length_take, List.length_cons, List.length_dropLast, hd, hr]; omega

/-- The object of the model. -/
private theorem made (i : Item) : ∃ body x, Epc.SGTIN.fromGtinPlusSerial i.gtin (escape i.serial) i.length = .ok x ∧
    Epc.SGTIN.new (py "urn:epc:id:sgtin:" ++ body) = .ok x ∧ asciiDigits (py "urn:epc:id:sgtin:" ++ body) = py "urn:epc:id:sgtin:" ++ body ∧
    x.serial = escape i.serial ∧ x.companyPref.length = i.length := by
  have hG : Digits (gtin14 i.gtin) := by
    refine Digits_append.2 ⟨fun c hc => ?_, i.digits⟩
    rw [List.eq_of_mem_replicate hc]; decide
  obtain ⟨k0, C, I, k, e, hC, hs⟩ := split14 (G := gtin14 i.gtin) (n := i.length)
    (by unfold gtin14; rw [List.length_append, List.length_replicate]; have := i.short; omega) i.six i.twelve
  rw [e] at hG
  have hI : Digits (k0 :: I) := Digits_cons.2 ⟨(Digits_cons.1 hG).1, (Digits_append.1 (Digits_append.1 (Digits_cons.1 hG).2).2).1⟩
  have hC' : Digits C := (Digits_append.1 (Digits_cons.1 hG).2).1
  have dC := dec_of_digits hC'
  have dI := dec_of_digits hI
  obtain ⟨x, hx⟩ := (C48_sgtin C (k0 :: I) i.serial dC.no_dot dI.no_dot i.gs82).2
    ⟨(uDigits_iff _).2 dC, (uDigits_iff _).2 dI, ⟨by rw [hC]; exact i.six, by rw [hC]; exact i.twelve, hs⟩, i.some, i.twenty, i.escapes⟩
  refine ⟨joinWith '.' [C, k0 :: I, escape i.serial], x, ?_, hx, ?_, ?_⟩
  · rw [C65_returns i.gtin (escape i.serial) i.length k0 k C I ((uDigits_iff _).2 (dec_of_digits i.digits)) e hC, hx]
  · have h1 := asciiDigits_ascii (ascii_of_digits hC')
    have h2 := asciiDigits_ascii (ascii_of_digits hI)
    have h3 := canonical_asciiDigits ⟨i.serial, i.some, i.gs82, rfl⟩
    show asciiDigits (_ ++ (C ++ '.' :: ((k0 :: I) ++ '.' :: escape i.serial))) = _ ++ (C ++ '.' :: ((k0 :: I) ++ '.' :: escape i.serial))
    rw [asciiDigits_append, asciiDigits_append, h1, asciiDigits_cons '.', asciiDigits_append, h2, asciiDigits_cons '.', h3]
    rfl
  · obtain ⟨C', D', S', ⟨⟨-, hC''⟩, ⟨-, hD'⟩, -⟩, -, e', rfl⟩ := SGTIN.new_iff.1 hx
    obtain ⟨rfl, rfl, h⟩ := uri3_inj (q := py "urn:epc:id:sgtin") dC.no_dot dI.no_dot hC''.no_dot hD'.no_dot e'
    exact ⟨h.symm, hC⟩

private theorem formed {body g : Str} {x : Epc.SGTIN} {cs : Epc.SGTIN.Coding} {f : Fin 8} {v : Val} {t : Str}
    (hu : Epc.SGTIN.new (py "urn:epc:id:sgtin:" ++ body) = .ok x) (hk : (Scheme.sgtin x).gs1Key Option.none = .ok g)
    (hv : IsFilter f v) (ht : x.tagUri cs f = .ok t)
    (H : ∃ b h s, x.binary cs f = .ok b ∧ x.hex cs f = .ok h ∧ x.base64 cs f = .ok s ∧
      (∀ tail, Epc.SGTIN.fromBinary (b ++ tail) = .ok x) ∧ Epc.SGTIN.fromHex h = .ok x ∧ Epc.SGTIN.fromBase64 s = .ok x) :
    ∃ t b h d, TagOf (objSGTIN x) (codSGTIN cs) v g t b h d := by
  obtain ⟨b, h, s, hb, hh, hd, rb, rh, rd⟩ := H
  replace rb : Epc.SGTIN.fromBinary b = .ok x := by simpa using rb []
  obtain ⟨s1, s2, s3, s4⟩ := C92_sgtin x cs f v hv []
  obtain ⟨k1, k2, k3⟩ := C40_sgtin _ x cs f Option.none Option.none hu
  have rt := C16_sgtin _ x cs f t hu ht
  refine ⟨t, b, h, s, by rw [s1, ht]; rfl, by rw [s2, hb]; rfl, by rw [s3, hh]; rfl, by rw [s4, hd]; rfl, ?_, ?_, ?_, ?_, ?_⟩
  · rw [C93_tag_uri_to_tag_encodable, (C18_parser_iff t (.sgtin x)).2 ⟨.sgtin, by show (Epc.SGTIN.fromTagUri t).map _ = _; rw [rt]; rfl⟩]; rfl
  · rw [C93_binary_to_tag_encodable, (C39_sgtin x cs f).1 b hb, rb]; rfl
  · rw [C93_hex_to_tag_encodable, (C39_sgtin x cs f).2.1 h hh, rh]; rfl
  · rw [C93_base64_to_tag_encodable, (C39_sgtin x cs f).2.2 s hd, rd]; rfl
  · intro w hw
    have e := C93_get_gs1_key w Option.none Option.none
    simp only [lenArg, keyKw] at e
    rw [e]
    simp only [List.mem_cons, List.not_mem_nil, or_false] at hw
    rcases hw with rfl | rfl | rfl
    · rw [k1 _ ht, hk]; rfl
    · rw [k2 _ hb rb, hk]; rfl
    · rw [k3 _ hh rh, hk]; rfl

/-- From an item to its tag and its label, and back: `from_gtin_plus_serial` returns an object; its `gtin` is the GTIN filled to 14 digits, its element
string is the label, and the label with the length of the company prefix gives the object back unless the serial number contains exactly two
characters between parentheses; with every filter value and every coding scheme that can express the item there are tags in all notations,
each of which reads back as the object and as the GTIN. -/
theorem C110_item (i : Item) : ∃ o, i.make = .ok o ∧
    invoke o .gtin [] [] = .ok (.str (gtin14 i.gtin)) ∧
    invoke o .gs1_element_string [] [] = .ok (.str i.label) ∧
    (¬ HasGroup 2 i.serial → function .gs1_element_string_to_gs1_element [.str i.label, .int i.length] [] = .ok o) ∧
    ∀ v ∈ members .SGTINFilterValue, ∀ s, i.Coding s → ∃ t b h d, TagOf o s v (gtin14 i.gtin) t b h d := by
  obtain ⟨body, x, h1, hu, ha, hs, hl⟩ := made i
  obtain ⟨g, hg, -, hc⟩ := C35_gtin i.gtin (escape i.serial) i.length x i.digits i.short h1
  replace hg : x.gtin = .ok (gtin14 i.gtin) := by rw [hg]; exact congrArg Except.ok (hc i.check)
  have hel : x.gs1ElementString = .ok i.label := by
    unfold Epc.SGTIN.gs1ElementString
    obtain ⟨_, _, -, hk⟩ := Epc.SGTIN.key hu
    have h14 : x.gtin14.take 14 = gtin14 i.gtin := Except.ok.inj hg
    rw [List.take_of_length_le (Nat.le_of_eq hk.2.1)] at h14
    rw [hs, replaceUriEscapes_escape, h14]
    rfl
  have hn : Cls.new .sgtin (py "urn:epc:id:sgtin:" ++ body) = .ok (.sgtin x) := by show (Epc.SGTIN.new _).map _ = _; rw [hu]; rfl
  refine ⟨objSGTIN x, by unfold Item.make; rw [C91_gtin_plus_serial, h1]; rfl, ?_, ?_, ?_, ?_⟩
  · have := (C92_gtin x ⟨[], [], [], [], []⟩ .gtin14).1
    rw [hg] at this
    rw [(C95_gtin x ⟨[], [], [], [], []⟩ .none).2.1]
    exact this
  · have := C92_element_strings (.sgtin x) rfl
    rw [show (Scheme.sgtin x).gs1ElementString = .ok i.label from hel] at this
    exact this
  · intro hp
    obtain ⟨s', e', hr, -⟩ := C32_sgtin_partial _ x i.serial hu hs
    cases hel.symm.trans e'
    rw [C93_gs1_element_string_to_gs1_element, elem_back (x := .sgtin x) hn hel
      (by show (Epc.SGTIN.fromGs1ElementString _ _).map _ = _; rw [← hl, hr hp]; rfl)]
    rfl
  · intro v hv s hcod
    obtain ⟨f, hf⟩ := (isFilter_of (n := 8) (e := .SGTINFilterValue) (by decide +kernel)).1 v hv
    rcases hcod with hcod | ⟨hcod, hnum, hlt⟩
    · cases (show Except.ok (codSGTIN .sgtin198) = .ok s from hcod)
      obtain ⟨y, b, h, d, hy, H⟩ := C68_sgtin198 _ x f hu ⟨i.serial, i.some, i.gs82, hs⟩
      rw [ha, hu] at hy
      cases hy
      exact formed hu hg hf (C47_sgtin body x f hu) ⟨b, h, d, H⟩
    · cases (show Except.ok (codSGTIN .sgtin96) = .ok s from hcod)
      have hs' : x.serial = i.serial := by rw [hs, escape_digits hnum.1]
      have ht := (C17_sgtin body x f hu).1 (by rw [hs']; exact ⟨hnum, hlt⟩)
      obtain ⟨y, b, h, d, hy, H⟩ := C68_sgtin96 _ _ x f hu ht
      rw [ha, hu] at hy
      cases hy
      exact formed hu hg hf ht ⟨b, h, d, H⟩

private theorem label_inj {i j : Item} (h : i.label = j.label) : gtin14 i.gtin = gtin14 j.gtin ∧ i.serial = j.serial := by
  have hl : ∀ k : Item, (gtin14 k.gtin).length = 14 := fun k => by
    unfold gtin14; rw [List.length_append, List.length_replicate]; have := k.short; omega
  unfold Item.label at h
  simp only [List.append_assoc] at h
  have h1 := List.append_inj (List.append_cancel_left h) (by rw [hl, hl])
  exact ⟨h1.1, List.append_cancel_left h1.2⟩

/-- No two different items have a tag in common: whatever the coding schemes and the filter values, a text that is a tag (in one notation) of both is
a tag of one GTIN and one serial number, made with one length of the company prefix. -/
theorem C110_distinct (i j : Item) (o o' s s' v v' : Val) (k k' t b h d t' b' h' d' : Str) (hi : i.make = .ok o) (hj : j.make = .ok o')
    (ti : TagOf o s v k t b h d) (tj : TagOf o' s' v' k' t' b' h' d') (he : t = t' ∨ b = b' ∨ h = h' ∨ d = d') :
    o = o' ∧ gtin14 i.gtin = gtin14 j.gtin ∧ i.serial = j.serial ∧ i.length = j.length := by
  obtain ⟨-, -, -, -, i1, i2, i3, i4, -⟩ := ti
  obtain ⟨-, -, -, -, j1, j2, j3, j4, -⟩ := tj
  have e : o = o' := by
    rcases he with rfl | rfl | rfl | rfl
    · exact Except.ok.inj (i1.symm.trans j1)
    · exact Except.ok.inj (i2.symm.trans j2)
    · exact Except.ok.inj (i3.symm.trans j3)
    · exact Except.ok.inj (i4.symm.trans j4)
  subst e
  obtain ⟨p, hp, -, hp2, -⟩ := C110_item i
  obtain ⟨q, hq, -, hq2, -⟩ := C110_item j
  cases hi.symm.trans hp
  cases hj.symm.trans hq
  have := hp2.symm.trans hq2
  obtain ⟨h1, h2⟩ := label_inj (Val.str.inj (Except.ok.inj this))
  refine ⟨rfl, h1, h2, ?_⟩
  obtain ⟨-, x, hx, -, -, -, hl⟩ := made i
  obtain ⟨-, y, hy, -, -, -, hm⟩ := made j
  unfold Item.make at hp hq
  rw [C91_gtin_plus_serial, hx] at hp
  rw [C91_gtin_plus_serial, hy] at hq
  have e : Scheme.sgtin x = .sgtin y := objScheme_inj (Except.ok.inj (hp.trans hq.symm))
  cases e
  exact hl.symm.trans hm

/-- An item. -/
def C110_example : Item where
  gtin := py "9521141123454"
  serial := py "4711"
  length := 7
  digits := by decide +kernel
  short := by decide
  check := by unfold CheckDigitOk; decide +kernel
  six := by decide
  twelve := by decide
  some := by decide
  twenty := by decide
  gs82 := by decide +kernel
  escapes := fun a c b h hc _ => by
    have : c ∈ py "4711" := by rw [h]; simp
    have key : ∀ c ∈ py "4711", c ∉ py "/<>?" := by decide
    exact absurd hc (key c this)

example : C110_example.label = py "(01)09521141123454(21)4711" := by decide +kernel
example : (∃ s, codingMember .SGTIN .SGTIN_96 = .ok s ∧ C110_example.Coding s) ∧ ∃ s, codingMember .SGTIN .SGTIN_198 = .ok s ∧ C110_example.Coding s :=
  ⟨⟨_, rfl, .inr ⟨rfl, by unfold Numeral; decide +kernel, by decide +kernel⟩⟩, ⟨_, rfl, .inl rfl⟩⟩
example : ¬ HasGroup 2 C110_example.serial := by
  rintro ⟨a, d, c, h, -⟩
  have : '(' ∈ C110_example.serial := by rw [h]; simp
  revert this; decide
example : (members .SGTINFilterValue).length = 8 := by decide +kernel

end Epc.Src
